import Verif.Prom.Durations
import Verif.RouteMetrics.Model

/-!
# The metrics of inbound routes: the layers do not disturb each other

Although a layer sees the response body through the layers under it, it records what it would record alone.
-/

namespace Verif.RouteMetrics

open Verif Verif.Prom

variable {E : Type}

/-! ## Specification: histories -/

/-- What happened to one request: when it was dispatched, its route, and the events. -/
abbrev History (E : Type) := Nat × Key × List (Nat × Ev E)

/-- The histories of the requests, in the order of dispatch. -/
def histories (ops : List (Op E)) : List (History E) :=
  ops.foldl (fun ts op => match op with
    | .call now k => ts ++ [(now, k, [])]
    | .on i now ev => ts.modify i fun t => (t.1, t.2.1, t.2.2 ++ [(now, ev)])) []

/-- The events without polls of the request's body that yield nothing, and without its frames' contents. -/
def heard (evs : List (Nat × Ev E)) : List (Nat × Prom.Ev E) := evs.filterMap fun e => e.2.toProm.map (e.1, ·)

/-- The same for a whole request. -/
def History.heard (t : History E) : Transcript Key E := (t.1, t.2.1, RouteMetrics.heard t.2.2)

/-! ## One layer over another -/

/-- The state of the layer that records statuses and of one that measures durations. -/
inductive Agree : Prom.Flow (Key × Option Nat) → DurFlow Key → Prop where
  | waiting (h : st.state.isSome) : Agree (.waiting s) ⟨.future, st⟩
  | streaming (h : st.state.isSome) : Agree (.streaming ⟨some s⟩) ⟨.body, st⟩
  | ended (h : st.state = none) : Agree (.streaming ⟨none⟩) ⟨.body, st⟩
  | gone (h : st.state = none) : Agree .gone ⟨.gone, st⟩

abbrev sStep (c : E) := statusStep (statusLabeler : Labeler Key E _ _) c
abbrev dStep (c : E) := durStep (routeLabeler : Labeler Key E _ _) c

theorem flush_state (st : DurState Key) (now : Nat) : (flush st now).state = st.state := by
  unfold flush
  split
  · split <;> rfl
  · rfl

/-- The layers stay in step. -/
theorem agree_step (c : E) (s : Prom.Flow (Key × Option Nat)) (d : DurFlow Key) (h : Agree s d) (now : Nat)
    (ev : Prom.Ev E) : Agree (sStep c s now ev).1 (dStep c d now ev).1 := by
  cases h with
  | @waiting x st h =>
    obtain ⟨y, hy⟩ := Option.isSome_iff_exists.1 h
    cases ev with
    | future p =>
      cases p with
      | pending => exact .waiting h
      | ok r e =>
        cases e with
        | true => simp [statusStep, durStep, EosBody.new, endStream, hy]; exact .ended rfl
        | false => simp [statusStep, durStep, EosBody.new, hy]; exact .streaming rfl
      | err e => simp [statusStep, durStep, endStream, hy]; exact .gone rfl
    | body p => exact .waiting h
    | drop => exact .gone rfl
    | reqPoll e =>
      cases e with
      | false => exact .waiting h
      | true => exact .waiting (by simpa [flush_state] using h)
    | reqDrop => exact .waiting (by simpa [flush_state] using h)
  | @streaming x st h =>
    obtain ⟨y, hy⟩ := Option.isSome_iff_exists.1 h
    cases ev with
    | future p => cases p <;> exact .streaming h
    | body p =>
      obtain ⟨p, e⟩ := p
      cases p with
      | pending => exact .streaming h
      | data b =>
        cases e with
        | true => simp [statusStep, durStep, EosBody.poll, eosRef, durPoll, endStream, hy]; exact .ended rfl
        | false => exact .streaming h
      | trailers t => simp [statusStep, durStep, EosBody.poll, eosRef, durPoll, endStream, hy]; exact .ended rfl
      | err e => simp [statusStep, durStep, EosBody.poll, eosRef, durPoll, endStream, hy]; exact .ended rfl
      | done => simp [statusStep, durStep, EosBody.poll, eosRef, durPoll, endStream, hy]; exact .ended rfl
    | drop => simp [statusStep, durStep, endStream, hy]; exact .gone rfl
    | reqPoll e =>
      cases e with
      | false => exact .streaming h
      | true => exact .streaming (by simpa [flush_state] using h)
    | reqDrop => exact .streaming (by simpa [flush_state] using h)
  | @ended st h =>
    cases ev with
    | future p => cases p <;> exact .ended h
    | body p =>
      obtain ⟨p, e⟩ := p
      cases p with
      | pending => exact .ended h
      | data b =>
        cases e with
        | true => simp [statusStep, durStep, EosBody.poll, eosRef, durPoll, endStream, h]; exact .ended h
        | false => exact .ended h
      | trailers t => simp [statusStep, durStep, EosBody.poll, eosRef, durPoll, endStream, h]; exact .ended h
      | err e => simp [statusStep, durStep, EosBody.poll, eosRef, durPoll, endStream, h]; exact .ended h
      | done => simp [statusStep, durStep, EosBody.poll, eosRef, durPoll, endStream, h]; exact .ended h
    | drop => simp [statusStep, durStep, endStream, h]; exact .gone h
    | reqPoll e =>
      cases e with
      | false => exact .ended h
      | true => exact .ended (by simpa [flush_state] using h)
    | reqDrop => exact .ended (by simpa [flush_state] using h)
  | @gone st h =>
    cases ev with
    | future p => cases p <;> exact .gone h
    | body p => exact .gone h
    | drop => exact .gone h
    | reqPoll e =>
      cases e with
      | false => exact .gone h
      | true => exact .gone (by simpa [flush_state] using h)
    | reqDrop => exact .gone (by simpa [flush_state] using h)

/-- A layer that measures durations does the same over the layer that records statuses. -/
theorem over_status (c : E) (s : Prom.Flow (Key × Option Nat)) (d : DurFlow Key) (h : Agree s d) (now : Nat)
    (ev : Prom.Ev E) : dStep c d now (overStatus (sStep c s now ev).1 ev) = dStep c d now ev := by
  cases h with
  | @waiting x st h =>
    cases ev with
    | future p =>
      cases p with
      | pending => rfl
      | ok r e => cases e <;> rfl
      | err e => rfl
    | body p => rfl
    | drop => rfl
    | reqPoll e => rfl
    | reqDrop => rfl
  | @streaming x st h =>
    cases ev with
    | future p => cases p <;> rfl
    | body p =>
      obtain ⟨p, e⟩ := p
      cases p <;> cases e <;> rfl
    | drop => rfl
    | reqPoll e => rfl
    | reqDrop => rfl
  | @ended st h =>
    cases ev with
    | future p => cases p <;> rfl
    | body p =>
      obtain ⟨p, e⟩ := p
      cases p <;> cases e <;> simp [statusStep, durStep, EosBody.poll, eosRef, durPoll, endStream, h, overStatus]
    | drop => rfl
    | reqPoll e => rfl
    | reqDrop => rfl
  | @gone st h =>
    cases ev with
    | future p => cases p <;> rfl
    | body p => rfl
    | drop => rfl
    | reqPoll e => rfl
    | reqDrop => rfl

/-- A layer that measures durations shows its response body as the layer under it does. -/
theorem over_duration (s : Prom.Flow (Key × Option Nat)) (d : DurFlow Key) (h : Agree s d) (ev : Prom.Ev E) :
    overDuration d (overStatus s ev) = overStatus s ev := by
  cases h with
  | waiting h => rfl
  | @streaming x st h =>
    cases ev with
    | future p => cases p <;> simp [overStatus, overDuration, EosBody.isEndStream, DurState.isEndStream]
                  all_goals (cases hs : st.state <;> simp_all)
    | body p => simp [overStatus, overDuration, EosBody.isEndStream, DurState.isEndStream]
                cases hs : st.state <;> simp_all
    | drop => rfl
    | reqPoll e => rfl
    | reqDrop => rfl
  | @ended st h =>
    cases ev with
    | future p => cases p <;> simp [overStatus, overDuration, EosBody.isEndStream, DurState.isEndStream, h]
    | body p => simp [overStatus, overDuration, EosBody.isEndStream, DurState.isEndStream, h]
    | drop => rfl
    | reqPoll e => rfl
    | reqDrop => rfl
  | gone h => rfl

/-- All layers of a request are in step. -/
def Flow.Ok (f : Flow) : Prop := Agree f.status f.reqDur ∧ Agree f.status f.rspDur

theorem start_ok (now : Nat) (k : Key) : (Flow.start (E := E) now k).Ok := by
  constructor
  · cases hk : k.grpc <;> simp [Flow.start, statusStart, statusLabeler, hk, grpcLabeler, httpLabeler, requestStart, routeLabeler]
      <;> exact .waiting rfl
  · cases hk : k.grpc <;> simp [Flow.start, statusStart, statusLabeler, hk, grpcLabeler, httpLabeler, responseStart, routeLabeler]
      <;> exact .waiting rfl

theorem respond_eq (c : E) (f : Flow) (h : f.Ok) (now : Nat) (ev : Prom.Ev E) :
    f.respond c now ev =
      ({ f with status := (sStep c f.status now ev).1, reqDur := (dStep c f.reqDur now ev).1,
                rspDur := (dStep c f.rspDur now ev).1 },
       (sStep c f.status now ev).2, (dStep c f.reqDur now ev).2, (dStep c f.rspDur now ev).2) := by
  have h1 := over_status c f.status f.reqDur h.1 now ev
  have h2 := over_status c f.status f.rspDur h.2 now ev
  have h3 := over_duration (sStep c f.status now ev).1 (dStep c f.reqDur now ev).1 (agree_step c _ _ h.1 now ev) ev
  unfold Flow.respond
  simp only [h1, h2, h3]

theorem respond_ok (c : E) (f : Flow) (h : f.Ok) (now : Nat) (ev : Prom.Ev E) : (f.respond c now ev).1.Ok := by
  rw [respond_eq c f h]
  exact ⟨agree_step c _ _ h.1 now ev, agree_step c _ _ h.2 now ev⟩

/-! ## All requests -/

/-- What the layers other than those of the bodies are told. -/
def Op.heard : Op E → Option (Prom.Op Key E)
  | .call now k => some (.call now k)
  | .on i now ev => ev.toProm.map (.on i now)

theorem map_modify {A B : Type} (f : A → B) (g : A → A) (g' : B → B) (h : ∀ a, f (g a) = g' (f a)) (l : List A) (i : Nat) :
    (l.modify i g).map f = (l.map f).modify i g' := by
  induction l generalizing i with
  | nil => simp
  | cons a l ih => cases i <;> simp [h, ih]

theorem heard_transcripts (ops : List (Op E)) :
    transcripts (ops.filterMap Op.heard) = (histories ops).map History.heard := by
  induction ops using snoc_induction with
  | nil => rfl
  | snoc ops op ih =>
    rw [List.filterMap_append]
    cases op with
    | call now k =>
      have h1 : histories (ops ++ [.call now k]) = histories ops ++ [(now, k, [])] := by
        simp [histories, List.foldl_append]
      rw [h1, List.map_append, ← ih]
      simp [transcripts, List.foldl_append, Op.heard, History.heard, heard]
    | «on» i now ev =>
      have h1 : histories (ops ++ [.on i now ev]) =
          (histories ops).modify i fun t => (t.1, t.2.1, t.2.2 ++ [(now, ev)]) := by
        simp [histories, List.foldl_append]
      rw [h1]
      cases he : ev.toProm with
      | none =>
        rw [map_modify _ _ id]
        · simp [Op.heard, he, ih]
        · intro t; simp [History.heard, heard, he]
      | some e =>
        rw [map_modify _ _ (fun t => (t.1, t.2.1, t.2.2 ++ [(now, e)])), ← ih]
        · simp [Op.heard, he, transcripts, List.foldl_append]
        · intro t; simp [History.heard, heard, he]

abbrev sSys (c : E) := Prom.Sys.run (statusStart (statusLabeler : Labeler Key E _ _)) (sStep c)
abbrev qSys (c : E) := Prom.Sys.run (requestStart (routeLabeler : Labeler Key E _ _)) (dStep c)
abbrev rSys (c : E) := Prom.Sys.run (responseStart (routeLabeler : Labeler Key E _ _)) (dStep c)

/-- The whole is its layers. -/
structure Parts (c : E) (ops : List (Op E)) : Prop where
  ok : ∀ f ∈ (Sys.run c ops).flows, f.Ok
  keys : (Sys.run c ops).flows.map (·.key) = (histories ops).map (·.2.1)
  status : (Sys.run c ops).flows.map (·.status) = (sSys c (ops.filterMap Op.heard)).flows
  reqDur : (Sys.run c ops).flows.map (·.reqDur) = (qSys c (ops.filterMap Op.heard)).flows
  rspDur : (Sys.run c ops).flows.map (·.rspDur) = (rSys c (ops.filterMap Op.heard)).flows
  statuses : (Sys.run c ops).record.statuses = (sSys c (ops.filterMap Op.heard)).emitted
  reqDurations : (Sys.run c ops).record.reqDurations = (qSys c (ops.filterMap Op.heard)).emitted
  rspDurations : (Sys.run c ops).record.rspDurations = (rSys c (ops.filterMap Op.heard)).emitted

theorem run_snoc (c : E) (ops : List (Op E)) (op : Op E) : Sys.run c (ops ++ [op]) = (Sys.run c ops).step c op := by
  simp [Sys.run, List.foldl_append]

theorem frames_same (r : Record) (f : Flow) (ev : Ev E) :
    (r.frames f ev).statuses = r.statuses ∧ (r.frames f ev).reqDurations = r.reqDurations ∧
    (r.frames f ev).rspDurations = r.rspDurations ∧ (r.frames f ev).requests = r.requests := by
  cases ev <;> simp [Record.frames]
  split <;> simp

theorem sys_snoc {F X : Type} (start : Nat → Key → F) (step : F → Nat → Prom.Ev E → F × Option X)
    (ops : List (Prom.Op Key E)) (op : Prom.Op Key E) :
    Prom.Sys.run start step (ops ++ [op]) = (Prom.Sys.run start step ops).step start step op := by
  simp [Prom.Sys.run, List.foldl_append]

theorem parts (c : E) (ops : List (Op E)) : Parts c ops := by
  induction ops using snoc_induction with
  | nil => constructor <;> simp [Sys.run, histories, Prom.Sys.run]
  | snoc ops op ih =>
    cases op with
    | call now k =>
      have hf : (ops ++ [Op.call now k]).filterMap Op.heard = ops.filterMap Op.heard ++ [.call now k] := by
        simp [Op.heard]
      have hh : histories (ops ++ [.call now k]) = histories ops ++ [(now, k, [])] := by
        simp [histories, List.foldl_append]
      constructor
      · intro f hm
        rw [run_snoc] at hm
        rcases List.mem_append.1 hm with hm | hm
        · exact ih.ok f hm
        · rw [List.mem_singleton.1 hm]; exact start_ok now k
      · rw [run_snoc, hh]; simp [Sys.step, ih.keys, Flow.start]
      · rw [run_snoc, hf, sSys, sys_snoc]; simp [Sys.step, Prom.Sys.step, ih.status, Flow.start]
      · rw [run_snoc, hf, qSys, sys_snoc]; simp [Sys.step, Prom.Sys.step, ih.reqDur, Flow.start]
      · rw [run_snoc, hf, rSys, sys_snoc]; simp [Sys.step, Prom.Sys.step, ih.rspDur, Flow.start]
      · rw [run_snoc, hf, sSys, sys_snoc]; simp [Sys.step, Prom.Sys.step, ih.statuses]
      · rw [run_snoc, hf, qSys, sys_snoc]; simp [Sys.step, Prom.Sys.step, ih.reqDurations]
      · rw [run_snoc, hf, rSys, sys_snoc]; simp [Sys.step, Prom.Sys.step, ih.rspDurations]
    | «on» i now ev =>
      have hk : (histories (ops ++ [Op.on i now ev])).map (·.2.1) = (histories ops).map (·.2.1) := by
        have : histories (ops ++ [.on i now ev]) =
            (histories ops).modify i fun t => (t.1, t.2.1, t.2.2 ++ [(now, ev)]) := by
          simp [histories, List.foldl_append]
        rw [this, map_modify _ _ id _ _ _] <;> simp
      have ihs := ih.status
      have ihq := ih.reqDur
      have ihr := ih.rspDur
      cases hi : (Sys.run c ops).flows[i]? with
      | none =>
        have hs : (Sys.run c ops).step c (.on i now ev) = Sys.run c ops := by simp [Sys.step, hi]
        have n1 : (sSys c (ops.filterMap Op.heard)).flows[i]? = none := by rw [← ihs]; simp [hi]
        have n2 : (qSys c (ops.filterMap Op.heard)).flows[i]? = none := by rw [← ihq]; simp [hi]
        have n3 : (rSys c (ops.filterMap Op.heard)).flows[i]? = none := by rw [← ihr]; simp [hi]
        have hr : Sys.run c (ops ++ [Op.on i now ev]) = Sys.run c ops := by rw [run_snoc, hs]
        have e1 : sSys c ((ops ++ [Op.on i now ev]).filterMap Op.heard) = sSys c (ops.filterMap Op.heard) := by
          cases he : ev.toProm with
          | none => simp [Op.heard, he]
          | some e =>
            rw [List.filterMap_append, show List.filterMap Op.heard [Op.on i now ev] = [.on i now e] by simp [Op.heard, he],
              sSys, sys_snoc]
            simp [Prom.Sys.step, n1]
        have e2 : qSys c ((ops ++ [Op.on i now ev]).filterMap Op.heard) = qSys c (ops.filterMap Op.heard) := by
          cases he : ev.toProm with
          | none => simp [Op.heard, he]
          | some e =>
            rw [List.filterMap_append, show List.filterMap Op.heard [Op.on i now ev] = [.on i now e] by simp [Op.heard, he],
              qSys, sys_snoc]
            simp [Prom.Sys.step, n2]
        have e3 : rSys c ((ops ++ [Op.on i now ev]).filterMap Op.heard) = rSys c (ops.filterMap Op.heard) := by
          cases he : ev.toProm with
          | none => simp [Op.heard, he]
          | some e =>
            rw [List.filterMap_append, show List.filterMap Op.heard [Op.on i now ev] = [.on i now e] by simp [Op.heard, he],
              rSys, sys_snoc]
            simp [Prom.Sys.step, n3]
        exact { ok := by rw [hr]; exact ih.ok, keys := by rw [hr, hk]; exact ih.keys, status := by rw [hr, e1]; exact ih.status
                reqDur := by rw [hr, e2]; exact ih.reqDur, rspDur := by rw [hr, e3]; exact ih.rspDur
                statuses := by rw [hr, e1]; exact ih.statuses, reqDurations := by rw [hr, e2]; exact ih.reqDurations
                rspDurations := by rw [hr, e3]; exact ih.rspDurations }
      | some f =>
        have fok := ih.ok f (List.mem_of_getElem? hi)
        obtain ⟨fr1, fr2, fr3, fr4⟩ := frames_same (Sys.run c ops).record f ev
        cases he : ev.toProm with
        | none =>
          have hf : (ops ++ [Op.on i now ev]).filterMap Op.heard = ops.filterMap Op.heard := by simp [Op.heard, he]
          have hr : Sys.run c (ops ++ [Op.on i now ev]) =
              { Sys.run c ops with record := (Sys.run c ops).record.frames f ev } := by
            rw [run_snoc]; simp [Sys.step, hi, he]
          exact { ok := by rw [hr]; exact ih.ok, keys := by rw [hr, hk]; exact ih.keys, status := by rw [hr, hf]; exact ih.status
                  reqDur := by rw [hr, hf]; exact ih.reqDur, rspDur := by rw [hr, hf]; exact ih.rspDur
                  statuses := by rw [hr, hf]; exact fr1.trans ih.statuses
                  reqDurations := by rw [hr, hf]; exact fr2.trans ih.reqDurations
                  rspDurations := by rw [hr, hf]; exact fr3.trans ih.rspDurations }
        | some e =>
          have hf : (ops ++ [Op.on i now ev]).filterMap Op.heard = ops.filterMap Op.heard ++ [.on i now e] := by
            simp [Op.heard, he]
          have n1 : (sSys c (ops.filterMap Op.heard)).flows[i]? = some f.status := by rw [← ihs]; simp [hi]
          have n2 : (qSys c (ops.filterMap Op.heard)).flows[i]? = some f.reqDur := by rw [← ihq]; simp [hi]
          have n3 : (rSys c (ops.filterMap Op.heard)).flows[i]? = some f.rspDur := by rw [← ihr]; simp [hi]
          have hr : Sys.run c (ops ++ [Op.on i now ev]) =
              { flows := (Sys.run c ops).flows.set i (f.respond c now e).1
                record := { (Sys.run c ops).record.frames f ev with
                  statuses := ((Sys.run c ops).record.frames f ev).statuses ++ (f.respond c now e).2.1.toList
                  reqDurations := ((Sys.run c ops).record.frames f ev).reqDurations ++ (f.respond c now e).2.2.1.toList
                  rspDurations := ((Sys.run c ops).record.frames f ev).rspDurations ++ (f.respond c now e).2.2.2.toList } } := by
            rw [run_snoc]; simp [Sys.step, hi, he]
          have hre := respond_eq c f fok now e
          have s1 : (sSys c (ops.filterMap Op.heard ++ [.on i now e])) =
              { sSys c (ops.filterMap Op.heard) with
                flows := (sSys c (ops.filterMap Op.heard)).flows.set i (sStep c f.status now e).1
                emitted := (sSys c (ops.filterMap Op.heard)).emitted ++ (sStep c f.status now e).2.toList } := by
            rw [sSys, sys_snoc, Prom.Sys.step, n1]
          have s2 : (qSys c (ops.filterMap Op.heard ++ [.on i now e])) =
              { qSys c (ops.filterMap Op.heard) with
                flows := (qSys c (ops.filterMap Op.heard)).flows.set i (dStep c f.reqDur now e).1
                emitted := (qSys c (ops.filterMap Op.heard)).emitted ++ (dStep c f.reqDur now e).2.toList } := by
            rw [qSys, sys_snoc, Prom.Sys.step, n2]
          have s3 : (rSys c (ops.filterMap Op.heard ++ [.on i now e])) =
              { rSys c (ops.filterMap Op.heard) with
                flows := (rSys c (ops.filterMap Op.heard)).flows.set i (dStep c f.rspDur now e).1
                emitted := (rSys c (ops.filterMap Op.heard)).emitted ++ (dStep c f.rspDur now e).2.toList } := by
            rw [rSys, sys_snoc, Prom.Sys.step, n3]
          constructor
          · intro g hg
            rw [hr] at hg
            rcases List.mem_or_eq_of_mem_set hg with hg | hg
            · exact ih.ok g hg
            · rw [hg]; exact respond_ok c f fok now e
          · rw [hr, hk, ← ih.keys, hre]
            simp only [List.map_set]
            apply List.ext_getElem?
            intro j
            rw [List.getElem?_set]
            split
            · subst_vars
              split
              · simp [hi]
              · rename_i h1
                simp at h1
                simp [List.getElem?_eq_none h1]
            · rfl
          · rw [hr, hf, s1, hre, ← ihs]; simp [List.map_set]
          · rw [hr, hf, s2, hre, ← ihq]; simp [List.map_set]
          · rw [hr, hf, s3, hre, ← ihr]; simp [List.map_set]
          · rw [hr, hf, s1, hre, ← ih.statuses]; simp [fr1]
          · rw [hr, hf, s2, hre, ← ih.reqDurations]; simp [fr2]
          · rw [hr, hf, s3, hre, ← ih.rspDurations]; simp [fr3]

end Verif.RouteMetrics
