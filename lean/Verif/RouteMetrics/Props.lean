import Verif.InboundPolicy.HttpProps
import Verif.RouteMetrics.Layers

/-!
# The metrics of inbound routes: properties

C119: the six families of metrics agree with what happened, and with each other.
-/

namespace Verif.RouteMetrics

open Verif Verif.Prom

variable {E : Type}

/-! ## Specification -/

/-- The status a request is recorded with. HTTP: that of the response, if there was one. gRPC: that of the trailers; without
trailers, that of the response's head. -/
def statusOf (grpc : Bool) (r : Option Rsp) (eos : Eos E) : Option Nat :=
  if grpc then
    match eos with
    | .trailers t => grpcStatus t
    | _ => r.bind fun r => grpcStatus r.headers
  else r.map (·.status)

/-- A request has ended. -/
def Ended (t : History E) : Prop := ∃ now r eos, Ends (heard t.2.2) now r eos

/-- Where a response is: not there yet, being read, or over. -/
inductive Stage where
  | before
  | reading
  | over
  deriving DecidableEq, Repr

/-- A response comes, or an error instead, or it is dropped. -/
def Stage.see : Stage → Ev E → Stage
  | .before, .future (.ok _ _) => .reading
  | .before, .future (.err _) => .over
  | .before, .drop => .over
  | .reading, .drop => .over
  | s, _ => s

/-- The size of a data frame. -/
def size (p : BodyPoll E) : List Nat :=
  match p.polled with
  | .data b => [b.length]
  | _ => []

/-- What is read from the response: while there is one. -/
def given : Stage → Ev E → List Nat
  | .reading, .body p => size p
  | _, _ => []

/-- The sizes of the data frames read from the response. -/
def responseFrames : Stage → List (Nat × Ev E) → List Nat
  | _, [] => []
  | s, (_, ev) :: evs => given s ev ++ responseFrames (s.see ev) evs

/-- The sizes of the data frames read from the request. -/
def requestFrames : List (Nat × Ev E) → List Nat
  | [] => []
  | (_, .reqBody p) :: evs => size p ++ requestFrames evs
  | _ :: evs => requestFrames evs

/-! ## Requests -/

theorem requests_eq (c : E) (ops : List (Op E)) :
    (Sys.run c ops).record.requests = (histories ops).map (·.2.1) := by
  induction ops using snoc_induction with
  | nil => rfl
  | snoc ops op ih =>
    rw [run_snoc]
    cases op with
    | call now k => simp [Sys.step, ih, histories, List.foldl_append]
    | «on» i now ev =>
      have h1 : histories (ops ++ [.on i now ev]) =
          (histories ops).modify i fun t => (t.1, t.2.1, t.2.2 ++ [(now, ev)]) := by
        simp [histories, List.foldl_append]
      rw [h1, map_modify _ _ id _ _ _, List.modify_id, ← ih]
      · cases hi : (Sys.run c ops).flows[i]? with
        | none => simp [Sys.step, hi]
        | some f =>
          have fr := (frames_same (Sys.run c ops).record f ev).2.2.2
          cases he : ev.toProm with
          | none => simp [Sys.step, hi, he, fr]
          | some e => simp [Sys.step, hi, he, fr]
      · intro t; rfl

/-- C119. The counter of requests of a route is the number of requests that were dispatched to it. -/
theorem C119_requests (c : E) (ops : List (Op E)) (k : Key) :
    (Sys.run c ops).record.requests.count k = ((histories ops).filter fun t => t.2.1 = k).length := by
  rw [requests_eq, List.count, List.countP_map, List.countP_eq_length_filter]
  congr 1

/-! ## Statuses and durations -/

theorem label_status (c : E) (k' : Key) (r : Option Rsp) (eos : Eos E) (x : Key × Option Nat) :
    LabelOf (statusLabeler : Labeler Key E _ _) c k' r eos x ↔ k' = x.1 ∧ x.2 = statusOf k'.grpc r eos := by
  obtain ⟨k, s⟩ := x
  constructor
  · rintro ⟨y, res, hy, hs, he⟩
    cases hg : k'.grpc <;> simp [statusLabeler, hg, grpcLabeler, httpLabeler] at hy <;> subst hy <;>
      cases hs <;> cases r <;> simp [statusLabeler, hg, grpcLabeler, httpLabeler] at he <;>
      simp [he, statusOf]
  · rintro ⟨rfl, rfl⟩
    refine ⟨(k', none), _, ?_, (shown_iff _ _ _).2 rfl, ?_⟩
    · cases hg : k'.grpc <;> simp [statusLabeler, hg, grpcLabeler, httpLabeler]
    · cases hg : k'.grpc <;> cases r <;> cases eos <;> simp [statusLabeler, hg, grpcLabeler, httpLabeler, statusOf]

theorem label_route (c : E) (k' : Key) (r : Option Rsp) (eos : Eos E) (k : Key) :
    LabelOf (routeLabeler : Labeler Key E _ _) c k' r eos k ↔ k' = k := by
  constructor
  · rintro ⟨y, res, hy, hs, he⟩
    simp only [routeLabeler, Option.some.injEq] at hy
    subst hy
    rw [he]
    cases r <;> rfl
  · rintro rfl
    refine ⟨k', _, rfl, (shown_iff _ _ _).2 rfl, ?_⟩
    cases r <;> rfl

theorem filter_heard (ops : List (Op E)) (P : Transcript Key E → Prop) (Q : History E → Prop)
    [DecidablePred P] [DecidablePred Q] (h : ∀ t : History E, P t.heard ↔ Q t) :
    ((transcripts (ops.filterMap Op.heard)).filter fun t => P t).length = ((histories ops).filter fun t => Q t).length := by
  rw [heard_transcripts, List.filter_map, List.length_map]
  congr 1
  apply List.filter_congr
  intro t _
  simp [Function.comp_def, h]

open Classical in
/-- C119. The counter of a status of a route is the number of requests of that route that have ended with that status, whatever
happens to other requests. -/
theorem C119_statuses (c : E) (ops : List (Op E)) (k : Key) (s : Option Nat) :
    (Sys.run c ops).record.statuses.count (k, s) =
      ((histories ops).filter fun t => t.2.1 = k ∧
        ∃ now r eos, Ends (heard t.2.2) now r eos ∧ s = statusOf k.grpc r eos).length := by
  rw [(parts c ops).statuses]
  rw [(run_sys _ _ _).2.1.count_eq, count_flatMap_once _ _ _ (fun t => Outcome (statusLabeler : Labeler Key E _ _) c t (k, s))
    fun t _ => ⟨(outs_status _ c t).1 _, (outs_status _ c t).2⟩]
  apply filter_heard
  intro t
  simp only [Outcome, label_status, History.heard]
  constructor
  · rintro ⟨now, r, eos, h1, rfl, h2⟩; exact ⟨rfl, now, r, eos, h1, h2⟩
  · rintro ⟨rfl, now, r, eos, h1, h2⟩; exact ⟨now, r, eos, h1, rfl, h2⟩

open Classical in
/-- C119. The durations of the requests of a route: one for each that has ended, from its dispatch to its end. -/
theorem C119_request_durations (c : E) (ops : List (Op E)) (k : Key) (d : Nat) :
    (Sys.run c ops).record.reqDurations.count (k, d) =
      ((histories ops).filter fun t => t.2.1 = k ∧ ∃ now r eos, Ends (heard t.2.2) now r eos ∧ d = now - t.1).length := by
  rw [(parts c ops).reqDurations, C83_request_durations]
  apply filter_heard
  intro t
  simp only [RequestTook, label_route, History.heard]
  constructor
  · rintro ⟨now, r, eos, h1, rfl, h2⟩; exact ⟨rfl, now, r, eos, h1, h2⟩
  · rintro ⟨rfl, now, r, eos, h1, h2⟩; exact ⟨now, r, eos, h1, rfl, h2⟩

open Classical in
/-- C119. The durations of the responses of a route: one for each request that has ended, from the end of its body to its end; nothing
if its body was not done by then. -/
theorem C119_response_durations (c : E) (ops : List (Op E)) (k : Key) (d : Nat) :
    (Sys.run c ops).record.rspDurations.count (k, d) =
      ((histories ops).filter fun t => t.2.1 = k ∧ ∃ pre now r eos, EndsAfter pre (heard t.2.2) now r eos ∧
        ((∃ u, FirstFlush pre u ∧ d = now - u) ∨ ((∀ u, ¬ FirstFlush pre u) ∧ d = 0))).length := by
  rw [(parts c ops).rspDurations, C83_response_durations]
  apply filter_heard
  intro t
  simp only [ResponseTook, label_route, History.heard]
  constructor
  · rintro ⟨pre, now, r, eos, h1, rfl, h2⟩; exact ⟨rfl, pre, now, r, eos, h1, h2⟩
  · rintro ⟨rfl, pre, now, r, eos, h1, h2⟩; exact ⟨pre, now, r, eos, h1, rfl, h2⟩

/-! ## The families agree -/

theorem length_flatMap_once {A B : Type} (f : A → List B) (ts : List A) (q : B → Bool) (P : A → Prop) [DecidablePred P]
    (h : ∀ t ∈ ts, (P t ↔ ∃ b ∈ f t, q b = true) ∧ (f t).length ≤ 1) :
    ((ts.flatMap f).filter q).length = (ts.filter P).length := by
  induction ts with
  | nil => rfl
  | cons t ts ih =>
    have ht := h t (by simp)
    have ih := ih fun x hx => h x (by simp [hx])
    rw [List.flatMap_cons, List.filter_append, List.length_append, ih]
    obtain ⟨h1, h2⟩ := ht
    cases hf : f t with
    | nil =>
      rw [hf] at h1
      have : ¬ P t := by simpa using h1
      simp [this]
    | cons b bs =>
      rw [hf] at h1 h2
      have : bs = [] := List.length_eq_zero_iff.1 (by simp at h2; exact List.length_eq_zero_iff.2 h2)
      subst this
      by_cases hq : q b = true
      · have : P t := h1.2 ⟨b, by simp, hq⟩
        simp [hq, this]; omega
      · have : ¬ P t := fun hp => by
          obtain ⟨b', hb', hq'⟩ := h1.1 hp
          rw [List.mem_singleton.1 hb'] at hq'
          exact hq hq'
        simp [hq, this]

theorem keyed (ops : List (Op E)) {X : Type} (l : List (Key × X)) (f : Transcript Key E → List (Key × X)) (k : Key)
    (hl : l.Perm ((transcripts (ops.filterMap Op.heard)).flatMap f)) (P : Transcript Key E → Key × X → Prop)
    (h : ∀ t, (∀ x, P t x ↔ x ∈ f t) ∧ (f t).length ≤ 1) (Q : History E → Prop) [DecidablePred Q]
    (hQ : ∀ t : History E, (∃ x, P t.heard x ∧ x.1 = k) ↔ Q t) :
    (l.filter fun x => x.1 = k).length = ((histories ops).filter fun t => Q t).length := by
  classical
  rw [(hl.filter _).length_eq, length_flatMap_once f _ _ (fun t => ∃ x, P t x ∧ x.1 = k)]
  · exact filter_heard ops _ _ hQ
  · intro t _
    refine ⟨?_, (h t).2⟩
    constructor
    · rintro ⟨x, hx, hk⟩; exact ⟨x, ((h t).1 x).1 hx, by simpa using hk⟩
    · rintro ⟨x, hx, hk⟩; exact ⟨x, ((h t).1 x).2 hx, by simpa using hk⟩

open Classical in
/-- C119. At every moment the families of a route agree: its statuses, its request durations and its response durations each number
the requests of the route that have ended, and its requests are these and the ones that have not ended. -/
theorem C119_families_agree (c : E) (ops : List (Op E)) (k : Key) :
    let m := (Sys.run c ops).record
    let ended := ((histories ops).filter fun t => t.2.1 = k ∧ Ended t).length
    (m.statuses.filter fun x => x.1 = k).length = ended ∧
    (m.reqDurations.filter fun x => x.1 = k).length = ended ∧
    (m.rspDurations.filter fun x => x.1 = k).length = ended ∧
    m.requests.count k = ended + ((histories ops).filter fun t => t.2.1 = k ∧ ¬ Ended t).length := by
  refine ⟨?_, ?_, ?_, ?_⟩
  · rw [(parts c ops).statuses]
    refine keyed ops _ _ k (run_sys _ _ _).2.1 _ (fun t => outs_status _ c t) (fun t => t.2.1 = k ∧ Ended t) fun t => ?_
    simp only [Outcome, label_status, History.heard, Ended]
    constructor
    · rintro ⟨x, ⟨now, r, eos, h1, h2, _⟩, h3⟩; exact ⟨h2.trans h3, now, r, eos, h1⟩
    · rintro ⟨h2, now, r, eos, h1⟩; exact ⟨(t.2.1, _), ⟨now, r, eos, h1, rfl, rfl⟩, h2⟩
  · rw [(parts c ops).reqDurations]
    refine keyed ops _ _ k (run_sys _ _ _).2.1 _ (fun t => outs_request _ c t) (fun t => t.2.1 = k ∧ Ended t) fun t => ?_
    simp only [RequestTook, label_route, History.heard, Ended]
    constructor
    · rintro ⟨x, ⟨now, r, eos, h1, h2, _⟩, h3⟩; exact ⟨h2.trans h3, now, r, eos, h1⟩
    · rintro ⟨h2, now, r, eos, h1⟩; exact ⟨(t.2.1, _), ⟨now, r, eos, h1, rfl, rfl⟩, h2⟩
  · rw [(parts c ops).rspDurations]
    refine keyed ops _ _ k (run_sys _ _ _).2.1 _ (fun t => outs_response _ c t) (fun t => t.2.1 = k ∧ Ended t) fun t => ?_
    have hi := (C83_observed_iff_counted (routeLabeler : Labeler Key E _ _) c t.heard).2
    constructor
    · rintro ⟨x, hx, h3⟩
      obtain ⟨l, now, r, eos, h1, _⟩ := hi.1 ⟨x, hx⟩
      obtain ⟨pre, now', r', eos', _, h2, _⟩ := hx
      exact ⟨((label_route _ _ _ _ _).1 h2).trans h3, now, r, eos, h1⟩
    · rintro ⟨h2, now, r, eos, h1⟩
      obtain ⟨x, hx⟩ := hi.2 ⟨t.2.1, now, r, eos, h1, (label_route _ _ _ _ _).2 rfl⟩
      refine ⟨x, hx, ?_⟩
      obtain ⟨pre, now', r', eos', _, h3, _⟩ := hx
      exact ((label_route _ _ _ _ _).1 h3).symm.trans h2
  · rw [C119_requests]
    induction histories ops with
    | nil => rfl
    | cons t ts ih =>
      by_cases h1 : t.2.1 = k <;> by_cases h2 : Ended t <;> simp [h1, h2] at ih ⊢ <;> omega

/-! ## Frames -/

/-- The state of the layer of the statuses, by where the response is. -/
inductive At : Prom.Flow (Key × Option Nat) → Stage → Prop where
  | before : At (.waiting s) .before
  | reading : At (.streaming b) .reading
  | over : At .gone .over

theorem at_step (c : E) (s : Prom.Flow (Key × Option Nat)) (st : Stage) (h : At s st) (now : Nat) (ev : Ev E) (e : Prom.Ev E)
    (he : ev.toProm = some e) : At (sStep c s now e).1 (st.see ev) := by
  cases ev with
  | future p =>
    simp only [Ev.toProm, Option.some.injEq] at he
    subst he
    cases h <;> cases p <;> constructor
  | body p =>
    simp only [Ev.toProm, Option.some.injEq] at he
    subst he
    cases h <;> constructor
  | drop =>
    simp only [Ev.toProm, Option.some.injEq] at he
    subst he
    cases h <;> constructor
  | reqBody p =>
    have : ∃ b, e = .reqPoll b := by
      obtain ⟨p, b⟩ := p
      cases p <;> simp [Ev.toProm] at he <;> exact ⟨_, he.symm⟩
    obtain ⟨b, rfl⟩ := this
    cases h <;> constructor
  | reqDrop =>
    simp only [Ev.toProm, Option.some.injEq] at he
    subst he
    cases h <;> constructor

theorem see_silent (st : Stage) (ev : Ev E) (he : ev.toProm = none) : st.see ev = st := by
  cases ev <;> simp [Ev.toProm] at he
  cases st <;> rfl

/-- Where the response is in the end. -/
def stageAfter (s : Stage) (evs : List (Nat × Ev E)) : Stage := evs.foldl (fun s e => s.see e.2) s

theorem responseFrames_snoc (s : Stage) (evs : List (Nat × Ev E)) (x : Nat × Ev E) :
    responseFrames s (evs ++ [x]) = responseFrames s evs ++ given (stageAfter s evs) x.2 := by
  induction evs generalizing s with
  | nil => simp [responseFrames, stageAfter]
  | cons a evs ih => simp [responseFrames, ih, stageAfter]

theorem requestFrames_append (a b : List (Nat × Ev E)) : requestFrames (a ++ b) = requestFrames a ++ requestFrames b := by
  induction a with
  | nil => rfl
  | cons x a ih =>
    obtain ⟨t, ev⟩ := x
    cases ev <;> simp [requestFrames, ih]

theorem frameOf_eq (k : Key) (p : BodyPoll E) : frameOf k p = (size p).map (k, ·) := by
  obtain ⟨p, e⟩ := p
  cases p <;> rfl

theorem frames_rsp (r : Record) (f : Flow) (ev : Ev E) (st : Stage) (h : At f.status st) :
    (r.frames f ev).rspFrames = r.rspFrames ++ (given st ev).map (f.key, ·) := by
  cases ev with
  | body p =>
    generalize hs : f.status = s at h
    cases h <;> simp [Record.frames, hs, hasBody, given, frameOf_eq]
  | _ => simp [Record.frames, given]

theorem frames_req (r : Record) (f : Flow) (ev : Ev E) (now : Nat) :
    (r.frames f ev).reqFrames = r.reqFrames ++ (requestFrames [(now, ev)]).map (f.key, ·) := by
  cases ev with
  | reqBody p => simp [Record.frames, requestFrames, frameOf_eq]
  | body p => simp only [Record.frames]; split <;> simp [requestFrames]
  | _ => simp [Record.frames, requestFrames]

/-- Where each response is, and what was recorded of the frames. -/
structure Frames (c : E) (ops : List (Op E)) : Prop where
  key : ∀ (i : Nat) (f : Flow) (t : History E), (Sys.run c ops).flows[i]? = some f → (histories ops)[i]? = some t →
    f.key = t.2.1 ∧ At f.status (stageAfter .before t.2.2)
  len : (Sys.run c ops).flows.length = (histories ops).length
  rsp : (Sys.run c ops).record.rspFrames.Perm
    ((histories ops).flatMap fun t => (responseFrames .before t.2.2).map (t.2.1, ·))
  req : (Sys.run c ops).record.reqFrames.Perm ((histories ops).flatMap fun t => (requestFrames t.2.2).map (t.2.1, ·))

theorem frames (c : E) (ops : List (Op E)) : Frames c ops := by
  induction ops using snoc_induction with
  | nil => constructor <;> simp [Sys.run, histories]
  | snoc ops op ih =>
    cases op with
    | call now k =>
      have hh : histories (ops ++ [.call now k]) = histories ops ++ [(now, k, [])] := by
        simp [histories, List.foldl_append]
      constructor
      · intro i f t hf ht
        rw [run_snoc] at hf
        rw [hh] at ht
        simp only [Sys.step] at hf
        by_cases hi : i < (histories ops).length
        · rw [List.getElem?_append_left (by rw [ih.len]; exact hi)] at hf
          rw [List.getElem?_append_left hi] at ht
          exact ih.key i f t hf ht
        · rw [List.getElem?_append_right (by rw [ih.len]; omega), ih.len] at hf
          rw [List.getElem?_append_right (by omega)] at ht
          cases hj : i - (histories ops).length with
          | zero =>
            rw [hj] at hf ht
            simp only [List.getElem?_cons_zero, Option.some.injEq] at hf ht
            subst hf ht
            refine ⟨rfl, ?_⟩
            cases hk : k.grpc <;> simp [Flow.start, statusStart, statusLabeler, hk, grpcLabeler, httpLabeler] <;> constructor
          | succ n => rw [hj] at hf; simp at hf
      · rw [run_snoc, hh]; simp [Sys.step, ih.len]
      · rw [run_snoc, hh]; simp [Sys.step, responseFrames]; exact ih.rsp
      · rw [run_snoc, hh]; simp [Sys.step, requestFrames]; exact ih.req
    | «on» i now ev =>
      have hh : histories (ops ++ [.on i now ev]) =
          (histories ops).modify i fun t => (t.1, t.2.1, t.2.2 ++ [(now, ev)]) := by
        simp [histories, List.foldl_append]
      cases hi : (Sys.run c ops).flows[i]? with
      | none =>
        have hlen : (histories ops).length ≤ i := by
          rw [← ih.len]; simpa using hi
        have hsame : histories (ops ++ [.on i now ev]) = histories ops := by
          rw [hh]; exact List.modify_eq_self hlen
        have hr : Sys.run c (ops ++ [Op.on i now ev]) = Sys.run c ops := by rw [run_snoc]; simp [Sys.step, hi]
        constructor
        · rw [hr, hsame]; exact ih.key
        · rw [hr, hsame]; exact ih.len
        · rw [hr, hsame]; exact ih.rsp
        · rw [hr, hsame]; exact ih.req
      | some f =>
        have hlt : i < (histories ops).length := by rw [← ih.len]; exact lt_of_getElem?_some hi
        obtain ⟨t, ht⟩ : ∃ t, (histories ops)[i]? = some t := ⟨_, List.getElem?_eq_getElem hlt⟩
        obtain ⟨hk, hat⟩ := ih.key i f t hi ht
        have fok := (parts c ops).ok f (List.mem_of_getElem? hi)
        -- what is recorded
        have hrec : (Sys.run c (ops ++ [Op.on i now ev])).record.rspFrames = ((Sys.run c ops).record.frames f ev).rspFrames ∧
            (Sys.run c (ops ++ [Op.on i now ev])).record.reqFrames = ((Sys.run c ops).record.frames f ev).reqFrames ∧
            ∃ f', (Sys.run c (ops ++ [Op.on i now ev])).flows = (Sys.run c ops).flows.set i f' ∧ f'.key = f.key ∧
              At f'.status (stageAfter .before (t.2.2 ++ [(now, ev)])) := by
          rw [run_snoc]
          have hst : stageAfter .before (t.2.2 ++ [(now, ev)]) = (stageAfter .before t.2.2).see ev := by
            simp [stageAfter, List.foldl_append]
          rw [hst]
          cases he : ev.toProm with
          | none =>
            refine ⟨by simp [Sys.step, hi, he], by simp [Sys.step, hi, he], f, ?_, rfl, ?_⟩
            · simp only [Sys.step, hi, he]
              apply List.ext_getElem?
              intro j
              rw [List.getElem?_set]
              split
              · subst_vars
                rw [if_pos (lt_of_getElem?_some hi), hi]
              · rfl
            · rw [see_silent _ _ he]; exact hat
          | some e =>
            refine ⟨by simp [Sys.step, hi, he], by simp [Sys.step, hi, he], (f.respond c now e).1, by simp [Sys.step, hi, he], ?_, ?_⟩
            · rw [respond_eq c f fok]
            · rw [respond_eq c f fok]; exact at_step c _ _ hat now ev e he
        obtain ⟨h1, h2, f', h3, h4, h5⟩ := hrec
        constructor
        · intro j g u hg hu
          rw [h3, List.getElem?_set] at hg
          rw [hh, List.getElem?_modify] at hu
          by_cases hij : i = j
          · subst hij
            rw [if_pos rfl, if_pos (lt_of_getElem?_some hi)] at hg
            simp only [ht, if_true, Option.map_eq_map, Option.map_some, Option.some.injEq] at hg hu
            subst hg hu
            exact ⟨h4.trans hk, h5⟩
          · rw [if_neg hij] at hg
            exact ih.key j g u hg (by simpa [hij] using hu)
        · rw [h3, hh]; simp [ih.len]
        · rw [h1, hh]
          refine List.Perm.trans ?_ (flatMap_modify_perm _ _ _ i t
            ((given (stageAfter .before t.2.2) ev).map (t.2.1, ·)) ht ?_).symm
          · rw [← hk, frames_rsp _ _ _ _ hat]
            exact ih.rsp.append_right _
          · simp only [responseFrames_snoc, List.map_append]
        · rw [h2, hh]
          refine List.Perm.trans ?_ (flatMap_modify_perm _ _ _ i t ((requestFrames [(now, ev)]).map (t.2.1, ·)) ht ?_).symm
          · rw [← hk, frames_req]
            exact ih.req.append_right _
          · simp only [requestFrames_append, List.map_append]

/-- C119. The data frames recorded for a route are those read from the responses to its requests, once each and with their sizes. -/
theorem C119_response_frames (c : E) (ops : List (Op E)) :
    (Sys.run c ops).record.rspFrames.Perm
      ((histories ops).flatMap fun t => (responseFrames .before t.2.2).map (t.2.1, ·)) := (frames c ops).rsp

/-- C119. Likewise for those read from the requests' bodies. -/
theorem C119_request_frames (c : E) (ops : List (Op E)) :
    (Sys.run c ops).record.reqFrames.Perm ((histories ops).flatMap fun t => (requestFrames t.2.2).map (t.2.1, ·)) :=
  (frames c ops).req

/-! ## What counts as an event -/

/-- C119. The end of the request's body, from which response durations are measured, is its being dropped or the first answer other than
`Pending` after which it says that it has ended. Polls of the body are otherwise no events of the response. -/
theorem C119_what_is_heard (ev : Ev E) :
    ((∃ e, ev.toProm = some e ∧ Flush e) ↔ ev = .reqDrop ∨ ∃ p, ev = .reqBody ⟨p, true⟩ ∧ p ≠ .pending) ∧
    (∀ p, ev.toProm = some (.future p) ↔ ev = .future p) ∧ (∀ p, ev.toProm = some (.body p) ↔ ev = .body p) ∧
    (ev.toProm = some .drop ↔ ev = .drop) := by
  cases ev with
  | reqBody p =>
    obtain ⟨p, e⟩ := p
    cases p <;> cases e <;> simp [Ev.toProm, Flush]
  | _ => simp [Ev.toProm, Flush]

/-! ## Requests do not disturb each other -/

/-- Without the events of one request. -/
def without (i : Nat) (ops : List (Op E)) : List (Op E) :=
  ops.filter fun
    | .on j _ _ => j ≠ i
    | .call _ _ => true

theorem histories_call (ops : List (Op E)) (now : Nat) (k : Key) :
    histories (ops ++ [.call now k]) = histories ops ++ [(now, k, [])] := by
  simp [histories, List.foldl_append]

theorem histories_on (ops : List (Op E)) (i now : Nat) (ev : Ev E) :
    histories (ops ++ [.on i now ev]) = (histories ops).modify i fun t => (t.1, t.2.1, t.2.2 ++ [(now, ev)]) := by
  simp [histories, List.foldl_append]

theorem without_call (i : Nat) (ops : List (Op E)) (now : Nat) (k : Key) :
    without i (ops ++ [.call now k]) = without i ops ++ [.call now k] := by
  simp [without, List.filter_append]

theorem without_on (i : Nat) (ops : List (Op E)) (l now : Nat) (ev : Ev E) :
    without i (ops ++ [.on l now ev]) = if l = i then without i ops else without i ops ++ [.on l now ev] := by
  by_cases h : l = i <;> simp [without, List.filter_append, h]

theorem map_modify_key (l : List (History E)) (i : Nat) (x : Nat × Ev E) :
    (l.modify i fun t => (t.1, t.2.1, t.2.2 ++ [x])).map (·.2.1) = l.map (·.2.1) := by
  rw [map_modify _ _ id _ _ _, List.modify_id]
  intro t; rfl

theorem histories_without (i : Nat) (ops : List (Op E)) (j : Nat) (h : j ≠ i) :
    (histories (without i ops))[j]? = (histories ops)[j]? ∧
    (histories (without i ops)).length = (histories ops).length ∧
    (histories (without i ops)).map (·.2.1) = (histories ops).map (·.2.1) := by
  induction ops using snoc_induction with
  | nil => exact ⟨rfl, rfl, rfl⟩
  | snoc ops op ih =>
    obtain ⟨ih1, ih2, ih3⟩ := ih
    cases op with
    | call now k =>
      rw [without_call, histories_call, histories_call]
      refine ⟨?_, by simp [ih2], by simp [ih3]⟩
      rw [List.getElem?_append, List.getElem?_append, ih2, ih1]
    | «on» l now ev =>
      rw [without_on, histories_on]
      by_cases hl : l = i
      · subst hl
        rw [if_pos rfl]
        refine ⟨?_, by simp [ih2], by rw [map_modify_key, ih3]⟩
        rw [ih1, List.getElem?_modify]
        simp [Ne.symm h]
      · rw [if_neg hl, histories_on]
        refine ⟨?_, by simp [ih2], by rw [map_modify_key, map_modify_key, ih3]⟩
        rw [List.getElem?_modify, List.getElem?_modify, ih1]

/-- C119. What happens to a request changes nothing in the metrics of other routes: without the events of one request, every family of
every other route is the same. -/
theorem C119_other_routes_are_not_touched (c : E) (ops : List (Op E)) (i : Nat) (t : History E) (ht : (histories ops)[i]? = some t)
    (k : Key) (hk : t.2.1 ≠ k) (s : Option Nat) (d : Nat) :
    let m := (Sys.run c ops).record
    let m' := (Sys.run c (without i ops)).record
    m.statuses.count (k, s) = m'.statuses.count (k, s) ∧
    m.reqDurations.count (k, d) = m'.reqDurations.count (k, d) ∧
    m.rspDurations.count (k, d) = m'.rspDurations.count (k, d) ∧
    m.requests.count k = m'.requests.count k := by
  classical
  have key : ∀ (P : History E → Prop) [DecidablePred P], (∀ u, P u → u.2.1 = k) →
      ((histories ops).filter fun u => P u).length = ((histories (without i ops)).filter fun u => P u).length := by
    intro P _ hP
    have hlen := (histories_without i ops (i + 1) (by omega)).2.1
    have hget := fun j hj => (histories_without i ops j hj).1
    have hi : ∃ u, (histories (without i ops))[i]? = some u ∧ u.2.1 = t.2.1 := by
      have h1 := (histories_without i ops (i + 1) (by omega)).2.2
      have h2 : ((histories (without i ops)).map (·.2.1))[i]? = some t.2.1 := by
        rw [h1]; simp [ht]
      simpa using h2
    obtain ⟨u, hu, hut⟩ := hi
    have n1 : ¬ P t := fun h => hk (hP t h)
    have n2 : ¬ P u := fun h => hk (hut.symm.trans (hP u h))
    generalize histories ops = l at *
    generalize histories (without i ops) = l' at *
    clear hP
    induction l generalizing l' i with
    | nil => simp at ht
    | cons a l ih =>
      cases l' with
      | nil => simp at hlen
      | cons a' l' =>
        cases i with
        | zero =>
          simp only [List.getElem?_cons_zero, Option.some.injEq] at ht hu
          subst ht hu
          have : l = l' := by
            apply List.ext_getElem?
            intro j
            have := hget (j + 1) (by omega)
            simpa using this.symm
          subst this
          simp [n1, n2]
        | succ i =>
          have h0 := hget 0 (by omega)
          simp only [List.getElem?_cons_zero, Option.some.injEq] at h0
          subst h0
          have := ih i (by simpa using ht) l' (by simpa using hu) (by simpa using hlen)
            (fun j hj => by simpa using hget (j + 1) (by omega))
          by_cases hp : P a' <;> simp [hp, this]
  refine ⟨?_, ?_, ?_, ?_⟩
  · rw [C119_statuses, C119_statuses]; exact key _ fun u h => h.1
  · rw [C119_request_durations, C119_request_durations]; exact key _ fun u h => h.1
  · rw [C119_response_durations, C119_response_durations]; exact key _ fun u h => h.1
  · rw [C119_requests, C119_requests]; exact key _ fun u h => h

/-! ## Behind the policy -/

section
variable {σ τ : Type} (gov : Nat → ServerPolicy.Limiter σ τ)

/-- The policy lets a request through, and somebody waits for the response; it is known by its server and by the route that let it
pass. -/
def LetThrough (legal : HttpRoute.Str → Bool) (a : Arrival σ τ) (k : Key) : Prop :=
  a.polled = true ∧ ∃ permit h, InboundPolicy.Passes legal a.draws a.p a.client a.req permit h ∧
    (a.limit.rateLimit.check gov a.buckets a.at_ (InboundPolicy.clientId a.client.tls)).1 = none ∧
    k = ⟨permit.grpc, refOf a.labelled.meta_, a.port, refOf permit.route⟩

theorem dispatched_iff (legal : HttpRoute.Str → Bool) (a : Arrival σ τ) (k : Key) :
    a.dispatched gov legal = some k ↔ LetThrough gov legal a k := by
  have h30 := InboundPolicy.C30_forwarded_iff gov legal a.draws a.p a.limit a.buckets a.at_ a.client a.req
  unfold Arrival.dispatched LetThrough
  cases ho : (InboundPolicy.call gov legal a.draws a.p a.limit a.buckets a.at_ a.client a.req).2.1 with
  | forwarded permit h =>
    have hp := (h30 permit h).1 ho
    dsimp only
    constructor
    · intro hd
      split at hd
      · rename_i h1
        simp only [Option.some.injEq] at hd
        exact ⟨h1, permit, h, hp.1, hp.2, hd.symm⟩
      · cases hd
    · rintro ⟨h1, permit', h', h2, h3, rfl⟩
      have := (h30 permit' h').2 ⟨h2, h3⟩
      rw [ho] at this
      cases this
      rw [if_pos h1]
  | _ =>
    constructor
    · intro h; cases h
    · rintro ⟨_, permit', h', h2, h3, _⟩
      have := (h30 permit' h').2 ⟨h2, h3⟩
      rw [ho] at this
      cases this

theorem histories_calls (ops : List (Op E)) :
    (histories ops).map (·.2.1) = ops.filterMap fun
      | .call _ k => some k
      | .on _ _ _ => none := by
  induction ops using snoc_induction with
  | nil => rfl
  | snoc ops op ih =>
    rw [List.filterMap_append, ← ih]
    cases op with
    | call now k => simp [histories, List.foldl_append]
    | «on» l now ev =>
      have : histories (ops ++ [.on l now ev]) =
          (histories ops).modify l fun t => (t.1, t.2.1, t.2.2 ++ [(now, ev)]) := by
        simp [histories, List.foldl_append]
      rw [this, map_modify _ _ id _ _ _, List.modify_id]
      · simp
      · intro t; rfl

open Classical in
/-- C119. The requests counted for a route are exactly those that came in and were let through by it: by authorization, filters and rate
limit. -/
theorem C119_only_what_is_let_through (legal : HttpRoute.Str → Bool) (c : E) (acts : List (Act σ τ E)) (k : Key) :
    (serve gov legal c acts).record.requests.count k =
      (acts.filter fun a => ∃ now r, a = .arrive now r ∧ LetThrough gov legal r k).length := by
  rw [serve, requests_eq, histories_calls]
  induction acts with
  | nil => rfl
  | cons a acts ih =>
    cases a with
    | arrive now r =>
      have hd := dispatched_iff gov legal r k
      cases hr : r.dispatched gov legal with
      | none =>
        have : ¬ LetThrough gov legal r k := fun h => by rw [← hd, hr] at h; cases h
        simp only [List.filterMap_cons, Act.op, hr, Option.map_none, ih]
        simp [this]
      | some k' =>
        simp only [List.filterMap_cons, Act.op, hr, Option.map_some, List.count_cons, ih]
        by_cases hk : k' = k
        · subst hk
          have : LetThrough gov legal r k' := hd.1 hr
          rw [List.filter_cons_of_pos (by exact decide_eq_true ⟨now, r, rfl, this⟩)]
          simp
        · have : ¬ LetThrough gov legal r k := fun h => by
            rw [← hd, hr] at h
            exact hk (Option.some.inj h)
          simp [this, hk]
    | «on» i now ev =>
      simp only [List.filterMap_cons, Act.op, ih]
      simp

/-- C119. What happens to a request that was let through happens to the layers: with the number of its dispatch. -/
theorem C119_events_reach_the_metrics (legal : HttpRoute.Str → Bool) (c : E) (acts : List (Act σ τ E)) (now : Nat) :
    (∀ i ev, serve gov legal c (acts ++ [.on i now ev]) = (serve gov legal c acts).step c (.on i now ev)) ∧
    (∀ a k, LetThrough gov legal a k →
      serve gov legal c (acts ++ [.arrive now a]) = (serve gov legal c acts).step c (.call now k)) := by
  constructor
  · intro i ev
    simp [serve, List.filterMap_append, Act.op, run_snoc]
  · intro a k h
    rw [← dispatched_iff] at h
    simp [serve, List.filterMap_append, Act.op, h, run_snoc]

/-- C119. A request that is refused leaves no trace in these metrics. -/
theorem C119_refused_requests_leave_no_trace (legal : HttpRoute.Str → Bool) (c : E) (pre post : List (Act σ τ E)) (now : Nat)
    (a : Arrival σ τ) (h : ∀ k, ¬ LetThrough gov legal a k) :
    serve gov legal c (pre ++ .arrive now a :: post) = serve gov legal c (pre ++ post) := by
  have hd : a.dispatched gov legal = none := by
    cases hr : a.dispatched gov legal with
    | none => rfl
    | some k => exact absurd ((dispatched_iff gov legal a k).1 hr) (h k)
  simp [serve, Act.op, hd, List.filterMap_append]

/-- C119, a limit: the server's label is read separately from the routes. While a server's policy is replaced, a request may be counted
for a route of the old policy under the name of the new one. -/
theorem C119_limit_labels_may_mix_two_policies (legal : HttpRoute.Str → Bool) (a : Arrival σ τ) (k : Key)
    (h : LetThrough gov legal a k) (new : ServerPolicy.ServerPolicy) :
    LetThrough gov legal { a with labelled := new } { k with server := refOf new.meta_ } := by
  obtain ⟨h1, permit, hs, h2, h3, rfl⟩ := h
  exact ⟨h1, permit, hs, h2, h3, rfl⟩

end

/-! ## Labels -/

/-- C119. The labels that are printed tell routes apart: two routes with the same labels in the same family are one. -/
theorem C119_labels_tell_routes_apart (k k' : Key) (hg : k.grpc = k'.grpc) (h : k.labels = k'.labels) : k = k' := by
  obtain ⟨g, ⟨a, b, n⟩, p, ⟨d, e, f⟩⟩ := k
  obtain ⟨g', ⟨a', b', n'⟩, p', ⟨d', e', f'⟩⟩ := k'
  simp_all [Key.labels]

/-- C119, a limit: a resource of no group and of the kind `default` is not told apart from a default of the same name. -/
theorem C119_limit_resources_that_look_like_defaults (name : List Char) :
    refOf (.default name) = refOf (.resource [] "default".toList name) := rfl

/-- C119. Defaults and resources are otherwise told apart. -/
theorem C119_references (m m' : ServerPolicy.Meta) (h : refOf m = refOf m') :
    m = m' ∨ ∃ name, (m = .default name ∧ m' = .resource [] "default".toList name) ∨
      (m' = .default name ∧ m = .resource [] "default".toList name) := by
  cases m with
  | default n =>
    cases m' with
    | default n' => simp only [refOf, Ref.mk.injEq, true_and] at h; exact .inl (by rw [h])
    | resource g k n' =>
      simp only [refOf, Ref.mk.injEq] at h
      obtain ⟨h1, h2, h3⟩ := h
      subst h1 h2 h3
      exact .inr ⟨n, .inl ⟨rfl, rfl⟩⟩
  | resource g k n =>
    cases m' with
    | default n' =>
      simp only [refOf, Ref.mk.injEq] at h
      obtain ⟨h1, h2, h3⟩ := h
      subst h1 h2 h3
      exact .inr ⟨n, .inr ⟨rfl, rfl⟩⟩
    | resource g' k' n' =>
      simp only [refOf, Ref.mk.injEq] at h
      obtain ⟨h1, h2, h3⟩ := h
      exact .inl (by rw [h1, h2, h3])

/-! ## Limits -/

/-- C119, a limit: a request whose caller goes away before there is a response never ends: it is counted as a request and in no
other family, ever. -/
theorem C119_limit_cancelled_before_the_response (pre post : List (Nat × Ev E)) (t : Nat)
    (h : ∀ e ∈ pre, ∀ p, e.2 = .future p → p = .pending) (now : Nat) (k : Key) :
    ¬ Ended (now, k, pre ++ (t, .drop) :: post) := by
  rintro ⟨u, r, eos, he⟩
  simp only at he
  rw [ends_iff] at he
  have : ∀ pre : List (Nat × Ev E), (∀ e ∈ pre, ∀ p, e.2 = .future p → p = .pending) →
      endOf (heard (pre ++ (t, .drop) :: post)) = none := by
    intro pre
    induction pre with
    | nil => intro _; rfl
    | cons x pre ih =>
      intro h
      have ih := ih fun e he => h e (by simp [he])
      obtain ⟨v, ev⟩ := x
      cases ev with
      | future p =>
        have : p = .pending := h (v, .future p) (by simp) p rfl
        subst this
        simpa [heard, Ev.toProm, endOf] using ih
      | body p => simpa [heard, Ev.toProm, endOf] using ih
      | drop => rfl
      | reqBody p =>
        obtain ⟨p, e⟩ := p
        cases p <;> simpa [heard, Ev.toProm, endOf] using ih
      | reqDrop => simpa [heard, Ev.toProm, endOf] using ih
  rw [this pre h] at he
  cases he

/-! ## Examples -/

/-- Two routes of a server, one for gRPC. -/
def exHttp : Key := ⟨false, ⟨"policy.linkerd.io".toList, "server".toList, "web".toList⟩, 80, ⟨[], "default".toList, "web".toList⟩⟩
def exGrpc : Key := ⟨true, ⟨"policy.linkerd.io".toList, "server".toList, "api".toList⟩, 81, ⟨[], "default".toList, "api".toList⟩⟩

/-- Three requests: one with a body, one of gRPC that ends with trailers, one that is given up. -/
def exOps : List (Op Unit) :=
  [.call 1 exHttp, .call 2 exGrpc, .call 3 exHttp,
    .on 0 4 (.reqBody ⟨.pending, false⟩), .on 0 5 (.reqBody ⟨.data [1, 2], true⟩), .on 2 5 .drop,
    .on 0 6 (.future (.ok ⟨200, []⟩ false)), .on 1 7 (.future (.ok ⟨200, []⟩ false)),
    .on 1 8 (.body ⟨.trailers [⟨"grpc-status", "3".toList⟩], false⟩), .on 0 9 (.body ⟨.data [7, 7, 7], false⟩),
    .on 0 10 (.body ⟨.data [8], true⟩), .on 0 11 .drop, .on 1 12 .drop]

/-- What is recorded: two requests over HTTP, one of which ended with a status of 200 after 9, and 5 from the end of its body; one
over gRPC with the status of the trailers. -/
example : (Sys.run () exOps).record =
    { requests := [exHttp, exGrpc, exHttp], statuses := [(exGrpc, some 3), (exHttp, some 200)],
      reqDurations := [(exGrpc, 6), (exHttp, 9)], rspDurations := [(exGrpc, 0), (exHttp, 5)],
      reqFrames := [(exHttp, 2)], rspFrames := [(exHttp, 3), (exHttp, 1)] } := by decide +kernel

example : Ended (E := Unit) (1, exHttp, [(6, .future (.ok ⟨200, []⟩ true))]) := ⟨6, _, _, .empty⟩

/-- The hypotheses of `C119_other_routes_are_not_touched`. -/
example : ∃ t, (histories exOps)[1]? = some t ∧ t.2.1 ≠ exHttp := ⟨_, rfl, by decide +kernel⟩

/-- A request that is let through by a route, and one that is refused for want of an authorization. -/
def exArrival (p : ServerPolicy.ServerPolicy) : Arrival Nat Nat where
  p := p
  labelled := p
  limit := p
  port := 80
  buckets := p.rateLimit.fresh InboundPolicy.counting
  at_ := 0
  draws _ := 0
  client := ⟨.v4 7, .none⟩
  req := InboundPolicy.sampleReq
  polled := true

example : (exArrival InboundPolicy.noFilters).dispatched InboundPolicy.counting (fun _ => true) =
    some ⟨false, ⟨[], "default".toList, "s".toList⟩, 80, ⟨[], "default".toList, "r".toList⟩⟩ := by decide +kernel

example : (exArrival (InboundPolicy.policyWith [] [])).dispatched InboundPolicy.counting (fun _ => true) = none := by decide +kernel

end Verif.RouteMetrics
