import Verif.RetryMetrics.Inv

/-!
# Metrics of outbound routes, with retries: properties

C121: with retries, a route's metrics count the requests that clients sent, and a backend's count the attempts that were sent to it.
-/

namespace Verif.RetryMetrics

open Verif Verif.Prom

variable {Q B E S L : Type} [DecidableEq Q]

/-- The attempts of a request, as the backends' recorder has them. -/
def attemptsOf (w : World Q B E) (f : Flight E) : List (Transcript B E) := f.attempts.filterMap fun a => (transcripts w.backendLog)[a]?

/-- C121. A route's recorder is given each request of a client once, however often it is retried, with the request's route. -/
theorem C121_one_request_for_the_route (fil : Q → Rsp → Rsp) (lab : Labeler B E S L) (cancelled : E) (acts : List (Act Q B E)) :
    ((transcripts (World.run fil lab cancelled acts).routeLog).map (·.2.1)) = (World.run fil lab cancelled acts).flights.map (·.1) ∧
    (World.run fil lab cancelled acts).flights.length = acts.countP fun | .call _ _ _ => true | _ => false := by
  refine ⟨?_, ?_⟩
  · have h := inv_run fil lab cancelled acts
    apply List.ext_getElem?
    intro i
    rw [List.getElem?_map, List.getElem?_map]
    cases hx : (World.run fil lab cancelled acts).flights[i]? with
    | none =>
      have : (transcripts (World.run fil lab cancelled acts).routeLog)[i]? = none := by
        rw [List.getElem?_eq_none_iff, h.rlen]
        exact List.getElem?_eq_none_iff.1 hx
      rw [this]; rfl
    | some x =>
      obtain ⟨t, h1, h2, -⟩ := h.req i x hx
      rw [h1]; simp [h2]
  · unfold World.run
    have : ∀ w : World Q B E, (acts.foldl (World.step fil lab cancelled) w).flights.length =
        w.flights.length + acts.countP fun | .call _ _ _ => true | _ => false := by
      induction acts with
      | nil => exact fun w => rfl
      | cons a acts ih =>
        intro w
        rw [List.foldl_cons, ih, List.countP_cons]
        cases a with
        | call now q r =>
          show (w.flights ++ _).length + _ = _
          simp only [List.length_append, List.length_cons, List.length_nil, if_true]
          omega
        | on i now ev =>
          have : (w.step fil lab cancelled (.on i now ev)).flights.length = w.flights.length := by
            unfold World.step
            dsimp only
            cases w.flights[i]? with
            | none => rfl
            | some x => dsimp only; rw [List.length_set]
          rw [this]; simp
    simpa using this ⟨[], [], [], 0, [], [], [], []⟩

/-- C121. A backend's recorder is given each attempt once: each of them is an attempt of exactly one request. -/
theorem C121_each_attempt_is_of_one_request (fil : Q → Rsp → Rsp) (lab : Labeler B E S L) (cancelled : E) (acts : List (Act Q B E)) :
    let w := World.run fil lab cancelled acts
    (w.flights.flatMap fun x => attemptsOf w x.2).Perm (transcripts w.backendLog) := by
  intro w
  have h : Inv fil w := inv_run fil lab cancelled acts
  unfold attemptsOf
  rw [← List.filterMap_flatMap]
  refine (h.perm.filterMap _).trans ?_
  rw [← h.sent]
  have : ∀ l : List (Transcript B E), (List.range l.length).filterMap (fun a => l[a]?) = l := by
    intro l
    induction l using snoc_induction with
    | nil => rfl
    | snoc l x ih =>
      rw [List.length_append, List.length_singleton, List.range_succ, List.filterMap_append]
      have e : (List.range l.length).filterMap (fun a => (l ++ [x])[a]?) = (List.range l.length).filterMap (fun a => l[a]?) := by
        have : ∀ m : List Nat, (∀ a ∈ m, a < l.length) → m.filterMap (fun a => (l ++ [x])[a]?) = m.filterMap (fun a => l[a]?) := by
          intro m hm
          induction m with
          | nil => rfl
          | cons a m ihm =>
            rw [List.filterMap_cons, List.filterMap_cons, List.getElem?_append_left (hm a (by simp)), ihm (fun b hb => hm b (by simp [hb]))]
        exact this _ (fun a ha => List.mem_range.1 ha)
      rw [e, ih]
      simp
  rw [this]

/-- C121. A request is tried at most once more than its policy allows retries, and attempts are only sent for tries. -/
theorem C121_tries_are_bounded (fil : Q → Rsp → Rsp) (lab : Labeler B E S L) (cancelled : E) (acts : List (Act Q B E)) (x : Q × Flight E)
    (hx : x ∈ (World.run fil lab cancelled acts).flights) :
    (attemptsOf (World.run fil lab cancelled acts) x.2).length ≤ x.2.tries ∧ x.2.tries ≤ 1 + x.2.retry.getD 0 := by
  have h := inv_run fil lab cancelled acts
  obtain ⟨i, hi⟩ := List.mem_iff_getElem?.1 hx
  refine ⟨Nat.le_trans ?_ (h.wf i x hi).tries, (h.wf i x hi).bound⟩
  unfold attemptsOf
  exact List.length_filterMap_le _ _

/-- C121. Once a client's request is over, because its response was read or dropped or there was an error, so are all its attempts: none is left behind,
and each has been counted under the label of how it ended, or was given up before there was a response. -/
theorem C121_nothing_is_left_behind (fil : Q → Rsp → Rsp) (lab : Labeler B E S L) (cancelled : E) (acts : List (Act Q B E))
    (i : Nat) (x : Q × Flight E) (t : Transcript Q E) :
    let w := World.run fil lab cancelled acts
    w.flights[i]? = some x → (transcripts w.routeLog)[i]? = some t → life t = .gone →
    ∀ a ∈ attemptsOf w x.2, life a = .gone ∧ ((∃ now r eos, Ends a.2.2 now r eos) ∨ Cancelled a) := by
  intro w hx ht hl a ha
  have h : Inv fil w := inv_run fil lab cancelled acts
  obtain ⟨t', h1, -, h3, -⟩ := h.req i x hx
  rw [h1] at ht
  cases ht
  unfold attemptsOf at ha
  obtain ⟨n, hn, hna⟩ := List.mem_filterMap.1 ha
  obtain ⟨t', h4, h5⟩ := h.role i x hx n hn
  rw [h4] at hna
  cases hna
  have hgone : life a = .gone := by
    rw [h5]
    have : x.2.stage.route = .gone := by rw [← h3, hl]
    revert this
    cases x.2.stage <;> simp [Stage.route, Stage.role]
  exact ⟨hgone, ends_or_cancelled a hgone⟩

/-- C121. At any time at most two attempts of a request are open: the last one, and the one whose response is kept in case the last one does not replace it. -/
theorem C121_two_open_attempts (fil : Q → Rsp → Rsp) (lab : Labeler B E S L) (cancelled : E) (acts : List (Act Q B E)) (x : Q × Flight E) :
    let w := World.run fil lab cancelled acts
    x ∈ w.flights → ((attemptsOf w x.2).filter fun a => life a ≠ .gone).length ≤ 2 := by
  intro w hx
  have h : Inv fil w := inv_run fil lab cancelled acts
  obtain ⟨i, hi⟩ := List.mem_iff_getElem?.1 hx
  have e : (attemptsOf w x.2).filter (fun a => life a ≠ .gone) =
      (x.2.attempts.filter fun a => x.2.stage.role a ≠ .gone).filterMap fun a => (transcripts w.backendLog)[a]? := by
    unfold attemptsOf
    have : ∀ l : List Nat, (∀ a ∈ l, a ∈ x.2.attempts) →
        (l.filterMap fun a => (transcripts w.backendLog)[a]?).filter (fun a => life a ≠ .gone) =
        (l.filter fun a => x.2.stage.role a ≠ .gone).filterMap fun a => (transcripts w.backendLog)[a]? := by
      intro l hl
      induction l with
      | nil => rfl
      | cons a l ih =>
        obtain ⟨t, h1, h2⟩ := h.role i x hi a (hl a (by simp))
        rw [List.filterMap_cons, h1, List.filter_cons, List.filter_cons, h2]
        rw [ih (fun b hb => hl b (by simp [hb]))]
        by_cases hg : x.2.stage.role a = .gone
        · simp [hg]
        · simp [hg, List.filterMap_cons, h1]
    exact this _ (fun a ha => ha)
  rw [e]
  refine Nat.le_trans (List.length_filterMap_le _ _) ?_
  have hsub : ∀ a ∈ x.2.attempts.filter (fun a => x.2.stage.role a ≠ .gone), a ∈ x.2.stage.holds := by
    intro a ha
    have := (List.mem_filter.1 ha).2
    revert this
    cases x.2.stage <;> simp only [Stage.role, Stage.holds, ne_eq, decide_not, Bool.not_eq_eq_eq_not, Bool.not_true, decide_eq_false_iff_not] <;>
      (intro hh; revert hh) <;> simp <;> (repeat' split) <;> simp_all
  have hnd : (x.2.attempts.filter fun a => x.2.stage.role a ≠ .gone).Nodup := by
    refine List.Pairwise.filter _ ?_
    have := h.perm.nodup_iff.2 List.nodup_range
    exact (List.pairwise_flatMap.1 this).1 x hx
  have := List.Nodup.length_le_of_subset hnd hsub
  refine Nat.le_trans this ?_
  have tl : ∀ o : Option Nat, o.toList.length ≤ 1 := by intro o; cases o <;> simp
  cases x.2.stage with
  | sending cur prev =>
    have := tl cur
    have := tl (prev.bind Kept.inner)
    simp only [Stage.holds, List.length_append]; omega
  | peeking cur r f prev =>
    have := tl (prev.bind Kept.inner)
    simp only [Stage.holds, List.length_cons]; omega
  | deciding res => exact Nat.le_trans (tl _) (by omega)
  | resting res => exact Nat.le_trans (tl _) (by omega)
  | given b => exact Nat.le_trans (tl _) (by omega)
  | fresh => simp [Stage.holds]
  | over => simp [Stage.holds]

/-- C121. A response that a client gets is the response of the last attempt made for its request, as the route's filters leave it, and the recorder of the
backend saw it. -/
theorem C121_the_last_attempt_is_given (fil : Q → Rsp → Rsp) (lab : Labeler B E S L) (cancelled : E) (acts : List (Act Q B E))
    (i : Nat) (x : Q × Flight E) (t : Transcript Q E) (r : Rsp) :
    let w := World.run fil lab cancelled acts
    w.flights[i]? = some x → (transcripts w.routeLog)[i]? = some t → Answered t r →
    ∃ a r0, (attemptsOf w x.2).getLast? = some a ∧ Answered a r0 ∧ r = fil x.1 r0 := by
  intro w hx ht hr
  have h : Inv fil w := inv_run fil lab cancelled acts
  obtain ⟨t', h1, -, -, h4⟩ := h.req i x hx
  rw [h1] at ht
  cases ht
  obtain ⟨-, n, r0, a, h5, h6, h7, h8⟩ := h4 r hr
  refine ⟨a, r0, ?_, h7, h8⟩
  unfold attemptsOf
  obtain ⟨l, hl⟩ := List.getLast?_eq_some_iff.1 h5
  rw [hl, List.filterMap_append]
  simp [h6]

/-- C121. The counter of retries of a route is the number of tries of its requests beyond each one's first. -/
theorem C121_retries_are_counted (fil : Q → Rsp → Rsp) (lab : Labeler B E S L) (cancelled : E) (acts : List (Act Q B E)) (q : Q) :
    let w := World.run fil lab cancelled acts
    w.requests.count q = ((w.flights.filter fun x => x.1 = q).map fun x => x.2.tries - 1).sum := by
  intro w
  have h : Inv fil w := inv_run fil lab cancelled acts
  rw [h.retries q]
  induction w.flights with
  | nil => rfl
  | cons x l ih =>
    rw [List.map_cons, List.sum_cons, List.filter_cons, ih]
    by_cases hx : x.1 = q <;> simp [hx]

/-- The requests of a route that are answered: there is a response or an error, or the client went away. -/
def answeredBy (w : World Q B E) (q : Q) : List (Flight E) :=
  (w.flights.zip (transcripts w.routeLog)).filterMap fun x => if x.1.1 = q ∧ life x.2 ≠ .future then some x.1.2 else none

theorem answeredBy_count (fil : Q → Rsp → Rsp) (w : World Q B E) (h : Inv fil w) (q : Q) (p : Flight E → Prop) [DecidablePred p] :
    (w.flights.map fun x => if x.1 = q ∧ x.2.stage.route ≠ .future ∧ p x.2 then 1 else 0).sum = (answeredBy w q).countP fun f => p f := by
  unfold answeredBy
  have hlen := h.rlen
  have hreq := fun i x hx => (h.req i x hx)
  generalize w.flights = fs at *
  generalize transcripts w.routeLog = ts at *
  induction fs generalizing ts with
  | nil => rfl
  | cons x fs ih =>
    cases ts with
    | nil => cases hlen
    | cons t ts =>
      obtain ⟨t', h1, -, h3, -⟩ := hreq 0 x rfl
      cases h1
      rw [List.map_cons, List.sum_cons, ih ts (by simpa using hlen) (fun i y hy => hreq (i + 1) y hy), List.zip_cons_cons, List.filterMap_cons]
      dsimp only
      rw [h3]
      by_cases hc : x.1 = q ∧ x.2.stage.route ≠ .future
      · rw [if_pos hc]
        dsimp only
        rw [List.countP_cons]
        by_cases hp : p x.2 <;> simp [hc, hp, Nat.add_comm]
      · rw [if_neg hc]
        simp only [← and_assoc, hc, false_and, if_false]
        omega

/-- C121. Each request whose retries come to an end is counted at most once, when it is answered, as a success, as over the limit, or as kept from being retried for want
of capacity: as a success only if it was retried, and as over the limit only if it was retried as often as its policy allows. -/
theorem C121_how_retries_ended (fil : Q → Rsp → Rsp) (lab : Labeler B E S L) (cancelled : E) (acts : List (Act Q B E)) (q : Q) :
    let w := World.run fil lab cancelled acts
    w.successes.count q + w.limitExceeded.count q + w.overflow.count q ≤ (answeredBy w q).length ∧
    w.successes.count q ≤ ((answeredBy w q).filter fun f => 2 ≤ f.tries).length ∧
    w.limitExceeded.count q ≤ ((answeredBy w q).filter fun f => f.tries = 1 + f.retry.getD 0).length := by
  intro w
  have h : Inv fil w := inv_run fil lab cancelled acts
  refine ⟨?_, ?_, ?_⟩
  · have := h.fin q
    have e := answeredBy_count fil w h q (fun _ => True)
    simp only [and_true] at e
    rw [e] at this
    simpa using this
  · have := h.success q
    rw [answeredBy_count fil w h q (fun f => 2 ≤ f.tries), List.countP_eq_length_filter] at this
    exact this
  · have := h.limit q
    rw [answeredBy_count fil w h q (fun f => f.tries = 1 + f.retry.getD 0), List.countP_eq_length_filter] at this
    exact this

open Classical in
/-- C121. When all requests of clients are over, the backends' request counters are the sum of their counters of ends, plus the attempts that were given up before there
was a response: no attempt of a retried request is lost, and none is counted twice. -/
theorem C121_attempts_add_up (fil : Q → Rsp → Rsp) (lab : Labeler B E S L) (cancelled : E) (acts : List (Act Q B E))
    (hlab : ∀ b, ∃ s, lab.make b = some s) :
    let w := World.run fil lab cancelled acts
    (∀ t ∈ transcripts w.routeLog, life t = .gone) →
    (Sys.run (statusStart lab) (statusStep lab cancelled) w.backendLog).requests =
      (Sys.run (statusStart lab) (statusStep lab cancelled) w.backendLog).emitted.length +
      ((transcripts w.backendLog).filter fun t => Cancelled t).length := by
  intro w hall
  have h : Inv fil w := inv_run fil lab cancelled acts
  have hp : (w.flights.flatMap fun x => attemptsOf w x.2).Perm (transcripts w.backendLog) :=
    C121_each_attempt_is_of_one_request fil lab cancelled acts
  rw [C82_requests_are_accounted_for]
  congr 2
  apply List.filter_congr
  intro t ht
  rw [decide_eq_decide]
  obtain ⟨x, hx, hxt⟩ := List.mem_flatMap.1 (hp.mem_iff.2 ht)
  obtain ⟨i, hi⟩ := List.mem_iff_getElem?.1 hx
  obtain ⟨rt, h1, -⟩ := h.req i x hi
  have := (C121_nothing_is_left_behind fil lab cancelled acts i x rt hi h1 (hall rt (List.mem_of_getElem? h1)) t hxt).2
  constructor
  · intro hno
    rcases this with ⟨now, r, eos, he⟩ | hc
    · exfalso
      obtain ⟨s, hs⟩ := hlab t.2.1
      have shown : ∃ res, Shown cancelled eos res := by
        cases eos
        · exact ⟨_, .none⟩
        · exact ⟨_, .trailers⟩
        · exact ⟨_, .error⟩
        · exact ⟨_, .cancelled⟩
      obtain ⟨res, hres⟩ := shown
      exact hno ⟨_, now, r, eos, he, s, res, hs, hres, rfl⟩
    · exact hc
  · rintro hc ⟨l, now, r, eos, he, -⟩
    exact cancelled_never_ends t hc ⟨now, r, eos, he⟩

/-! ## Examples -/

/-- A request that may be retried once. Its first attempt gets a 503, of which two frames are read, so that it is held while the request is
tried again. Meanwhile there is another request, that is not retried and whose client goes away. -/
def exFirst : List (Act Nat Nat String) :=
  [.call 0 7 (some 1), .on 0 1 (.start (some 40)), .on 0 2 (.answer (.ok ⟨503, []⟩ false) false), .call 3 8 none,
   .on 1 3 (.start (some 41)), .on 0 4 (.body ⟨.data [1], false⟩), .on 0 5 (.body ⟨.data [2], false⟩),
   .on 0 6 (.decide true false), .on 0 7 (.wake (.ready (some 42)))]

def exAll : List (Act Nat Nat String) :=
  exFirst ++ [.on 0 8 (.answer (.ok ⟨200, []⟩ true) false), .on 0 9 (.decide false false), .on 1 10 .drop, .on 0 11 (.body ⟨.pending, true⟩), .on 0 12 .drop]

abbrev exLab : Labeler Nat String (Option Nat) (Option Nat) := httpLabeler

def exRun (acts : List (Act Nat Nat String)) : World Nat Nat String :=
  World.run (fun _ r => r) exLab "cancelled" acts

example : (exRun exAll).flights.map (·.2.attempts) = [[0, 2], [1]] ∧ (exRun exAll).flights.map (·.2.tries) = [2, 1] ∧
    (transcripts (exRun exAll).routeLog).map life = [.gone, .gone] ∧ (transcripts (exRun exAll).backendLog).map life = [.gone, .gone, .gone] ∧
    (exRun exAll).requests = [7] ∧ (exRun exAll).successes = [7] ∧
    (transcripts (exRun exFirst).backendLog).map life = [.body, .future, .future] := by decide +kernel

/-- Three attempts were sent to backends, two are counted by their statuses, one was given up before there was a response. -/
example : (Sys.run (statusStart exLab) (statusStep exLab "cancelled") (exRun exAll).backendLog).requests = 3 ∧
    (Sys.run (statusStart exLab) (statusStep exLab "cancelled") (exRun exAll).backendLog).emitted = [some 200, some 503] := by
  decide +kernel

example : ∀ b : Nat, ∃ s, exLab.make b = some s := fun _ => ⟨none, rfl⟩

/-- C121. An attempt that failed is not counted when it fails: if its response has a body of which more than a frame was read to look for trailers, it is held while the
request is tried again, and so its status is counted only when the next attempt has been answered, which may be much later. -/
theorem C121_limit_counted_late :
    statuses exLab "cancelled" (exRun exFirst).backendLog (some 503) = 0 ∧
    statuses exLab "cancelled" (exRun (exFirst ++ [.on 0 800000 (.answer .pending false)])).backendLog (some 503) = 0 ∧
    statuses exLab "cancelled" (exRun (exFirst ++ [.on 0 800000 (.answer (.ok ⟨200, []⟩ true) false)])).backendLog (some 503) = 1 := by
  decide +kernel

end Verif.RetryMetrics
