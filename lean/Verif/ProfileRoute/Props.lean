import Verif.ProfileRoute.Model
import Verif.ProfileRetry.Props

/-!
# C125: a request of a profile's route ends once, in time, and all its attempts carry what they should

A history is a run of any operations from a fresh route. It is a list of events, each of a request at a time.
-/

namespace Verif.ProfileRoute

open Verif.Classify Verif.ProfileRetry

variable {B : Type}

/-! ## What an attempt carries -/

/-- An attempt is the client's request: its method, its URI, its version and its headers, but that `l5d-dst-canonical` is the
route's logical address, whatever the client had there. It has the client's connection, the route's classifier, and the
route. -/
structure Carries (r : Route) (q h : Head) : Prop where
  method : h.method = q.method
  uri : h.uri = q.uri
  version : h.version = q.version
  headers : ∀ n, h.headers.getAll n = if n = "l5d-dst-canonical" then [r.addr] else q.headers.getAll n
  client : ∀ n, getClient q.extensions = some (.client n) → getClient h.extensions = some (.client n)
  noClient : getClient q.extensions = none → getClient h.extensions = none
  classifier : ∀ n, .classify n ∈ h.extensions ↔ n = r.classifier q.headers
  route : .other "route" ∈ h.extensions

theorem getClient_cons (e : Ext) (es : List Ext) (h : ∀ n, e ≠ .client n) : getClient (e :: es) = getClient es := by
  cases e with
  | client n => exact absurd rfl (h n)
  | _ => rfl

theorem getClient_filter (p : Ext → Bool) (hp : ∀ n, p (.client n) = true) (es : List Ext) :
    getClient (es.filter p) = getClient es := by
  induction es with
  | nil => rfl
  | cons e es ih =>
    cases e with
    | client n => simp [List.filter_cons, hp, getClient]
    | classify n =>
      rw [getClient_cons _ es (by simp), List.filter_cons]
      split
      · rw [getClient_cons _ _ (by simp), ih]
      · exact ih
    | other n =>
      rw [getClient_cons _ es (by simp), List.filter_cons]
      split
      · rw [getClient_cons _ _ (by simp), ih]
      · exact ih

theorem getClient_kind {es : List Ext} {e : Ext} (h : getClient es = some e) : ∃ n, e = .client n := by
  have := List.find?_some h
  cases e <;> simp at this
  exact ⟨_, rfl⟩

theorem getClassify_prepare (r : Route) (q : Head) :
    getClassify (prepare r q).extensions = some (.classify (r.classifier q.headers)) := rfl

theorem getClient_prepare (r : Route) (q : Head) : getClient (prepare r q).extensions = getClient q.extensions := by
  show getClient (.classify _ :: _) = _
  rw [getClient_cons _ _ (by simp), getClient_filter _ (by intro n; rfl)]

theorem getClient_insertRoute (q : Head) : getClient (insertRoute q).extensions = getClient q.extensions := by
  show getClient (.other "route" :: _) = _
  rw [getClient_cons _ _ (by simp), getClient_filter _ (by intro n; simp)]

theorem carries_first (r : Route) (q : Head) : Carries r q (insertRoute (prepare r q)) where
  method := rfl
  uri := rfl
  version := rfl
  headers n := by
    show HeaderMap.getAll (HeaderMap.insert q.headers "l5d-dst-canonical" r.addr) n = _
    rw [HeaderMap.getAll_insert]
  client n hn := by rw [getClient_insertRoute, getClient_prepare, hn]
  noClient hn := by rw [getClient_insertRoute, getClient_prepare, hn]
  classifier n := by
    simp [insertRoute, prepare, isClassify]
  route := by simp [insertRoute]

theorem carries_again (r : Route) (q : Head) : Carries r q (insertRoute (cloneRequest (prepare r q))) := by
  obtain ⟨-, -, -, -, -, hc, hk, -⟩ := C50_resent_request (prepare r q)
  refine ⟨rfl, rfl, rfl, ?_, ?_, ?_, ?_, by simp [insertRoute]⟩
  · intro n
    show HeaderMap.getAll (HeaderMap.insert q.headers "l5d-dst-canonical" r.addr) n = _
    rw [HeaderMap.getAll_insert]
  · intro n hn
    rw [getClient_insertRoute, hc, getClient_prepare, hn]
  · intro hn
    rw [getClient_insertRoute, hc, getClient_prepare, hn]
  · intro n
    have hx : (cloneRequest (prepare r q)).extensions =
        (getClient (prepare r q).extensions).toList ++ (getClassify (prepare r q).extensions).toList := rfl
    rw [getClassify_prepare] at hx
    simp only [insertRoute, hx, List.mem_cons, List.mem_filter, List.mem_append, Option.mem_toList]
    constructor
    · rintro (h | ⟨h, -⟩)
      · cases h
      · rcases h with h | h
        · obtain ⟨m, hm⟩ := getClient_kind h
          cases hm
        · simpa using h.symm
    · rintro rfl
      exact .inr ⟨.inr rfl, by simp⟩

/-! ## The exchange of a request -/

/-- Where a request is. -/
inductive Stage where
  | fresh
  | waiting (attempt : Head)
  | answered (attempt : Head) (res : Result) (capped : Option Bool)
  | over

/-- What may happen to a request, `q` as the client sent it. -/
inductive Goes (r : Route) (q : Head) : Stage → What → Stage → Prop
  /-- A first attempt has also what other extensions the request had. -/
  | first (h : Head) (hc : Carries r q h) (ho : ∀ n, .other n ∈ q.extensions → .other n ∈ h.extensions) :
    Goes r q .fresh (.attempt h) (.waiting h)
  | answer (h : Head) (res : Result) (capped : Option Bool) :
    Goes r q (.waiting h) (.answered res capped) (.answered h res capped)
  /-- Only a failure, by the route's classes, of a request whose body was kept whole, is tried again, on a route with
  retries. -/
  | again (h h' : Head) (res : Result) (hr : r.retries = true) (hf : Failure r.classes h.headers res)
    (hc : Carries r q h') : Goes r q (.answered h res (some false)) (.attempt h') (.waiting h')
  /-- A result that is not tried again is the client's. -/
  | fails (h : Head) (capped : Option Bool) : Goes r q (.answered h .error capped) (.over .failed) .over
  | responds (h : Head) (status : Nat) (headers : HeaderMap) (trailers : Option HeaderMap) (capped : Option Bool) :
    Goes r q (.answered h (.response status headers trailers) capped) (.over (.response status headers)) .over
  /-- Only what still waits can time out, or be given up. -/
  | timeout (h : Head) (t : Nat) (ht : r.timeout = some t) : Goes r q (.waiting h) (.over (.timedOut t)) .over
  | gone (h : Head) : Goes r q (.waiting h) (.over .dropped) .over

inductive Path (r : Route) (q : Head) : Stage → List What → Stage → Prop
  | nil (s : Stage) : Path r q s [] s
  | cons {s s' s'' : Stage} {w : What} {ws : List What} : Goes r q s w s' → Path r q s' ws s'' → Path r q s (w :: ws) s''

theorem Path.append {r : Route} {q : Head} {s s' s'' : Stage} {ws ws' : List What} (h : Path r q s ws s')
    (h' : Path r q s' ws' s'') : Path r q s (ws ++ ws') s'' := by
  induction h with
  | nil => exact h'
  | cons g _ ih => exact .cons g (ih h')

/-- A request that arrived: when, and what the client sent. -/
structure Arrival where
  time : Nat
  head : Head

/-- The time, and the requests that arrived. -/
def note (x : Nat × List Arrival) : Op → Nat × List Arrival
  | .call head _ => (x.1, x.2 ++ [⟨x.1, head⟩])
  | .pass ms => (x.1 + ms, x.2)
  | _ => x

def clock (ops : List Op) : Nat := (ops.foldl note (0, [])).1

def arrivals (ops : List Op) : List Arrival := (ops.foldl note (0, [])).2

/-- The events of a request. -/
def eventsOf (i : Nat) (tr : List Event) : List Event := tr.filter fun e => decide (e.req = i)

def whatsOf (i : Nat) (tr : List Event) : List What := (eventsOf i tr).map Event.what

/-- What the retries have of a request that waits. -/
def Kept (r : Route) (q : Head) (l : Option Live) : Prop :=
  l = some .plain ∨ (r.retries = true ∧ l = some (.kept (cloneRequest (prepare r q))))

theorem pollInner_spec (bud : Budget B) (r : Route) (now i : Nat) (q : Head) (rs : List (Result × Option Bool))
    (s : ProfileRetry.State B) (h : Head) (hh : h.headers = (prepare r q).headers) (hk : Kept r q s.reqs[i]?) :
    let x := pollInner bud r now i s rs
    x.1.reqs.length = s.reqs.length ∧ (∀ j, j ≠ i → x.1.reqs[j]? = s.reqs[j]?) ∧
      ((x.2.2 = none ∧ Kept r q x.1.reqs[i]? ∧
          ∃ h', h'.headers = (prepare r q).headers ∧ Path r q (.waiting h) x.2.1 (.waiting h')) ∨
        (∃ o, x.2.2 = some o ∧ (∀ t, o ≠ .timedOut t) ∧ Path r q (.waiting h) (x.2.1 ++ [.over o]) .over)) := by
  induction rs generalizing s h with
  | nil => exact ⟨rfl, fun _ _ => rfl, .inl ⟨rfl, hk, h, hh, .nil _⟩⟩
  | cons x rs ih =>
    obtain ⟨res, capped⟩ := x
    have hout : ∀ capped, Path r q (.waiting h) ([.answered res capped] ++ [.over (outcomeOf res)]) .over := by
      intro capped
      refine .cons (.answer h res capped) (.cons ?_ (.nil _))
      cases res with
      | error => exact .fails h capped
      | response st hd t => exact .responds h st hd t capped
    have hne : ∀ t, outcomeOf res ≠ .timedOut t := by cases res <;> simp [outcomeOf]
    rcases hk with hk | ⟨hr, hk⟩
    · simp only [pollInner, step, ProfileRetry.step, hk]
      refine ⟨by simp, ?_, .inr ⟨_, rfl, hne, hout capped⟩⟩
      intro j hj
      simp [List.getElem?_set, Ne.symm hj]
    · have hi : i < s.reqs.length := by
        have := hk
        rw [List.getElem?_eq_some_iff] at this
        exact this.1
      have hdec := C50_decision bud r.classes s i now res capped true _ hk
      rw [← hr] at hdec
      by_cases hf : Failure r.classes (cloneRequest (prepare r q)).headers res ∧ capped = some false
      · obtain ⟨-, -, hd⟩ := hdec.1 hf
        have hret := (retryable_iff r.classes (cloneRequest (prepare r q)).headers capped res).2 hf
        cases hw : (bud.withdraw s.budget now).2 with
        | false =>
          simp only [pollInner, ProfileRetry.step, hk, retry, hret, hw, Bool.not_true, Bool.not_false, Bool.false_eq_true,
            if_false, if_true]
          refine ⟨by simp, ?_, .inr ⟨_, rfl, hne, hout capped⟩⟩
          intro j hj
          simp [List.getElem?_set, Ne.symm hj]
        | true =>
          simp only [pollInner, ProfileRetry.step, hk, retry, hret, hw, Bool.not_true, Bool.false_eq_true, if_false, if_true]
          have hidem := (C50_resent_request (prepare r q)).2.2.2.2.2.2.2
          have key := ih ⟨(bud.withdraw s.budget now).1, s.reqs.set i (.kept (cloneRequest (cloneRequest (prepare r q)))),
              s.counters.note (.withdraw true)⟩
            (insertRoute (cloneRequest (prepare r q))) rfl (by
              right
              refine ⟨hr, ?_⟩
              rw [hidem]
              simp [hi])
          have pre : ∀ {ws st}, Path r q (.waiting (insertRoute (cloneRequest (prepare r q)))) ws st →
              Path r q (.waiting h) (.answered res capped :: .attempt (insertRoute (cloneRequest (prepare r q))) :: ws) st := by
            intro ws st hp
            refine .cons (.answer h res capped) (.cons ?_ hp)
            rw [hf.2]
            refine .again h _ res hr ?_ (carries_again r q)
            rw [hh]
            exact hf.1
          obtain ⟨k1, k2, k3⟩ := key
          refine ⟨by rw [k1]; simp, ?_, ?_⟩
          · intro j hj
            rw [k2 j hj]
            simp [List.getElem?_set, Ne.symm hj]
          · rcases k3 with ⟨a, b, h', c, d⟩ | ⟨o, a, b, c⟩
            · exact .inl ⟨a, b, h', c, pre d⟩
            · exact .inr ⟨o, a, b, pre c⟩
      · have hret : retryable r.classes (cloneRequest (prepare r q)).headers capped res = false := by
          cases hx : retryable r.classes (cloneRequest (prepare r q)).headers capped res with
          | false => rfl
          | true => exact absurd ((retryable_iff _ _ _ _).1 hx) hf
        simp only [pollInner, ProfileRetry.step, hk, retry, hret, Bool.not_false, Bool.false_eq_true, if_false, if_true]
        refine ⟨by simp, ?_, .inr ⟨_, rfl, hne, hout capped⟩⟩
        intro j hj
        simp [List.getElem?_set, Ne.symm hj]

/-! ## Histories -/

theorem run_snoc (bud : Budget B) (r : Route) (s : State B) (ops : List Op) (o : Op) :
    run bud r s (ops ++ [o]) =
      ((step bud r (run bud r s ops).1 o).1, (run bud r s ops).2 ++ (step bud r (run bud r s ops).1 o).2) := by
  induction ops generalizing s with
  | nil => simp [run]
  | cons a ops ih => simp [run, ih, List.append_assoc]

/-- What is so of a request in a state. -/
structure Fine (r : Route) (a : Arrival) (i : Nat) (s : State B) (tr : List Event) (q : Req) : Prop where
  deadline : q.deadline = r.timeout.map (a.time + ·)
  begins : ∃ h tl, eventsOf i tr = ⟨i, a.time, .attempt h⟩ :: tl
  stage : (q.outcome = none ∧ Kept r a.head s.inner.reqs[i]? ∧
      ∃ h, h.headers = (prepare r a.head).headers ∧ Path r a.head .fresh (whatsOf i tr) (.waiting h)) ∨
    ((∃ o, q.outcome = some o ∧ ∃ e ∈ tr, e.req = i ∧ e.what = .over o) ∧ Path r a.head .fresh (whatsOf i tr) .over)

structure Inv (r : Route) (ops : List Op) (s : State B) (tr : List Event) : Prop where
  now : s.now = clock ops
  len : s.reqs.length = (arrivals ops).length
  ilen : s.inner.reqs.length = (arrivals ops).length
  bound : ∀ e ∈ tr, e.req < (arrivals ops).length
  each : ∀ i a, (arrivals ops)[i]? = some a → ∃ q, s.reqs[i]? = some q ∧ Fine r a i s tr q
  late : ∀ e ∈ tr, ∀ t, e.what = .over (.timedOut t) → ∃ a, (arrivals ops)[e.req]? = some a ∧ a.time + t ≤ e.time

theorem eventsOf_append (i : Nat) (tr tr' : List Event) : eventsOf i (tr ++ tr') = eventsOf i tr ++ eventsOf i tr' :=
  List.filter_append ..

theorem whatsOf_append (i : Nat) (tr tr' : List Event) : whatsOf i (tr ++ tr') = whatsOf i tr ++ whatsOf i tr' := by
  simp [whatsOf, eventsOf_append]

theorem eventsOf_other (i j now : Nat) (h : j ≠ i) (ws : List What) :
    eventsOf i (ws.map (⟨j, now, ·⟩ : What → Event)) = [] := by
  simp [eventsOf, h]

theorem whatsOf_same (i now : Nat) (ws : List What) : whatsOf i (ws.map (⟨i, now, ·⟩ : What → Event)) = ws := by
  induction ws with
  | nil => rfl
  | cons w ws ih => simp only [whatsOf, eventsOf, List.map_cons, List.filter_cons] at ih ⊢; simp [ih]

theorem clock_snoc (ops : List Op) (o : Op) :
    clock (ops ++ [o]) = (note (clock ops, arrivals ops) o).1 ∧
      arrivals (ops ++ [o]) = (note (clock ops, arrivals ops) o).2 := by
  simp [clock, arrivals]

theorem whatsOf_other (i j now : Nat) (h : j ≠ i) (ws : List What) :
    whatsOf i (ws.map (⟨j, now, ·⟩ : What → Event)) = [] := by
  simp [whatsOf, eventsOf_other i j now h]

theorem Fine.other {r : Route} {a : Arrival} {i j now : Nat} {s s' : State B} {tr : List Event} {ws : List What} {q : Req}
    (h : Fine r a i s tr q) (hj : j ≠ i) (hs : s'.inner.reqs[i]? = s.inner.reqs[i]?) :
    Fine r a i s' (tr ++ ws.map (⟨j, now, ·⟩ : What → Event)) q := by
  obtain ⟨h1, h2, h3⟩ := h
  refine ⟨h1, ?_, ?_⟩
  · rw [eventsOf_append, eventsOf_other i j now hj, List.append_nil]; exact h2
  · rw [whatsOf_append, whatsOf_other i j now hj, List.append_nil, hs]
    rcases h3 with h3 | ⟨⟨o, ho, e, he, h4⟩, h5⟩
    · exact .inl h3
    · exact .inr ⟨⟨o, ho, e, List.mem_append_left _ he, h4⟩, h5⟩

theorem begins_append {i : Nat} {t : Nat} {tr tr' : List Event}
    (h : ∃ h tl, eventsOf i tr = ⟨i, t, .attempt h⟩ :: tl) :
    ∃ h tl, eventsOf i (tr ++ tr') = ⟨i, t, .attempt h⟩ :: tl := by
  obtain ⟨h, tl, e⟩ := h
  exact ⟨h, tl ++ eventsOf i tr', by rw [eventsOf_append, e]; rfl⟩

theorem inv (bud : Budget B) (r : Route) (b : B) (ops : List Op) :
    Inv r ops (run bud r (init b) ops).1 (run bud r (init b) ops).2 := by
  induction ops using snoc_induction with
  | nil =>
    refine ⟨rfl, rfl, rfl, ?_, ?_, ?_⟩
    · intro e he; simp [run] at he
    · intro i a h; simp [arrivals] at h
    · intro e he; simp [run] at he
  | snoc ops o ih =>
    rw [run_snoc]
    generalize (run bud r (init b) ops).1 = s at ih ⊢
    generalize (run bud r (init b) ops).2 = tr at ih ⊢
    obtain ⟨hnow, hlen, hilen, hbound, heach, hlate⟩ := ih
    obtain ⟨hc, ha⟩ := clock_snoc ops o
    cases o with
    | pass ms =>
      simp only [note] at hc ha
      simp only [step, List.append_nil]
      refine ⟨by rw [hc, ← hnow], by rw [ha]; exact hlen, by rw [ha]; exact hilen, by rw [ha]; exact hbound, ?_, by rw [ha]; exact hlate⟩
      rw [ha]
      intro i a hi
      obtain ⟨q, hq, h1, h2, h3⟩ := heach i a hi
      exact ⟨q, hq, h1, h2, h3⟩
    | call head tooLarge =>
      simp only [note] at hc ha
      have hcall : ∃ l, (l = .plain ∨ (r.retries = true ∧ l = .kept (cloneRequest (prepare r head)))) ∧
          ProfileRetry.step bud r.retries r.classes s.inner (.call (prepare r head) tooLarge) =
            ({ s.inner with reqs := s.inner.reqs ++ [l] }, .sent (prepare r head), none) := by
        simp only [ProfileRetry.step]
        split
        · rename_i hx
          simp only [Bool.and_eq_true] at hx
          exact ⟨_, .inr ⟨hx.1, rfl⟩, rfl⟩
        · exact ⟨_, .inl rfl, rfl⟩
      obtain ⟨l, hl, hcall⟩ := hcall
      simp only [step, hcall]
      rw [hlen]
      have hold : ∀ {n : Nat} {x : List Event}, n = (arrivals ops).length →
          x = [(⟨n, s.now, .attempt (insertRoute (prepare r head))⟩ : Event)] →
          x = [What.attempt (insertRoute (prepare r head))].map (⟨n, s.now, ·⟩ : What → Event) := by
        intro n x _ hx; rw [hx]; rfl
      refine ⟨by rw [hc]; exact hnow, by rw [ha]; simp [hlen], by rw [ha]; simp [hilen], ?_, ?_, ?_⟩
      · rw [ha]
        intro e he
        simp only [List.mem_append, List.mem_singleton] at he
        rcases he with he | rfl
        · have := hbound e he; simp; omega
        · simp
      · rw [ha]
        intro i a hi
        rw [List.getElem?_append] at hi
        split at hi
        · rename_i hlt
          obtain ⟨q, hq, hf⟩ := heach i a hi
          refine ⟨q, ?_, ?_⟩
          · simp only [List.getElem?_append, hlen, hlt, if_true]
            exact hq
          · refine hf.other (ws := [.attempt (insertRoute (prepare r head))]) (by omega) ?_
            simp only [List.getElem?_append, hilen, hlt, if_true]
        · rename_i hge
          have hi0 : i = (arrivals ops).length := by
            cases hx : i - (arrivals ops).length with
            | zero => omega
            | succ n => rw [hx] at hi; simp at hi
          subst hi0
          simp only [Nat.sub_self, List.getElem?_cons_zero, Option.some.injEq] at hi
          subst hi
          have hno : eventsOf (arrivals ops).length tr = [] := by
            simp only [eventsOf, List.filter_eq_nil_iff, decide_eq_true_eq]
            intro e he h
            have := hbound e he
            omega
          refine ⟨⟨r.timeout.map (s.now + ·), none⟩, by simp [← hlen], ?_⟩
          refine ⟨by rw [hnow], ?_, .inl ⟨rfl, ?_, insertRoute (prepare r head), rfl, ?_⟩⟩
          · refine ⟨insertRoute (prepare r head), [], ?_⟩
            rw [eventsOf_append, hno, ← hnow]
            simp [eventsOf]
          · rcases hl with rfl | ⟨hr, rfl⟩
            · left; simp [← hilen]
            · right; exact ⟨hr, by simp [← hilen]⟩
          · have : whatsOf (arrivals ops).length
                (tr ++ [⟨(arrivals ops).length, s.now, .attempt (insertRoute (prepare r head))⟩]) =
                [.attempt (insertRoute (prepare r head))] := by
              rw [whatsOf_append]
              simp [whatsOf, hno]
              simp [eventsOf]
            rw [this]
            refine .cons (.first _ (carries_first r head) ?_) (.nil _)
            intro n hn
            simp only [insertRoute, prepare, List.mem_cons, List.mem_filter]
            by_cases hx : n = "route"
            · left; rw [hx]
            · right
              refine ⟨.inr ⟨hn, rfl⟩, by simp [hx]⟩
      · rw [ha]
        intro e he t ht
        simp only [List.mem_append, List.mem_singleton] at he
        rcases he with he | rfl
        · obtain ⟨a, h1, h2⟩ := hlate e he t ht
          refine ⟨a, ?_, h2⟩
          rw [List.getElem?_append]
          have := lt_of_getElem?_some h1
          simp only [this, if_true]
          exact h1
        · cases ht
    | drop i =>
      simp only [note] at hc ha
      rw [show step bud r s (.drop i) = match s.reqs[i]? with
        | some ⟨deadline, none⟩ =>
          ({ s with reqs := s.reqs.set i ⟨deadline, some .dropped⟩ }, [⟨i, s.now, .over .dropped⟩])
        | _ => (s, []) from rfl]
      split
      · rename_i dl hq
        have hi : i < s.reqs.length := lt_of_getElem?_some hq
        refine ⟨by rw [hc]; exact hnow, by rw [ha]; simp [hlen], by rw [ha]; exact hilen, ?_, ?_, ?_⟩
        · rw [ha]
          intro e he
          simp only [List.mem_append, List.mem_singleton] at he
          rcases he with he | rfl
          · exact hbound e he
          · rw [← hlen]; exact hi
        · rw [ha]
          intro j a hj
          obtain ⟨q, hq', hf⟩ := heach j a hj
          by_cases hji : j = i
          · subst hji
            rw [hq] at hq'
            cases hq'
            refine ⟨⟨dl, some .dropped⟩, by simp [hi], hf.deadline, begins_append hf.begins, .inr ⟨⟨.dropped, rfl, ⟨j, s.now, .over .dropped⟩, ?_, rfl, rfl⟩, ?_⟩⟩
            · exact List.mem_append_right _ (List.mem_singleton.2 rfl)
            · rcases hf.stage with ⟨-, -, h, -, hp⟩ | ⟨⟨o, ho, -⟩, -⟩
              · have hw := whatsOf_same j s.now [.over .dropped]
                simp only [List.map_cons, List.map_nil] at hw
                rw [whatsOf_append, hw]
                exact hp.append (.cons (.gone h) (.nil _))
              · cases ho
          · refine ⟨q, ?_, hf.other (ws := [.over .dropped]) (Ne.symm hji) rfl⟩
            simp only [List.getElem?_set, Ne.symm hji, if_false]
            exact hq'
        · rw [ha]
          intro e he t ht
          simp only [List.mem_append, List.mem_singleton] at he
          rcases he with he | rfl
          · exact hlate e he t ht
          · cases ht
      · simp only [List.append_nil]
        exact ⟨by rw [hc]; exact hnow, by rw [ha]; exact hlen, by rw [ha]; exact hilen, by rw [ha]; exact hbound,
          by rw [ha]; exact heach, by rw [ha]; exact hlate⟩
    | poll i rs =>
      simp only [note] at hc ha
      rw [show step bud r s (.poll i rs) = match s.reqs[i]? with
        | some ⟨deadline, none⟩ =>
          let q := pollInner bud r s.now i s.inner rs
          let o := q.2.2.or (expire s.now r deadline)
          (⟨q.1, s.now, s.reqs.set i ⟨deadline, o⟩⟩, (q.2.1 ++ (o.map What.over).toList).map (⟨i, s.now, ·⟩))
        | _ => (s, []) from rfl]
      split
      · rename_i dl hq
        have hi : i < s.reqs.length := lt_of_getElem?_some hq
        obtain ⟨a, hai⟩ : ∃ a, (arrivals ops)[i]? = some a := ⟨_, List.getElem?_eq_getElem (by omega)⟩
        obtain ⟨q, hq', hf⟩ := heach i a hai
        rw [hq] at hq'
        cases hq'
        have hst : Kept r a.head s.inner.reqs[i]? ∧
            ∃ h, h.headers = (prepare r a.head).headers ∧ Path r a.head .fresh (whatsOf i tr) (.waiting h) := by
          rcases hf.stage with ⟨-, h⟩ | ⟨⟨o, ho, -⟩, -⟩
          · exact h
          · cases ho
        obtain ⟨hk, h, hh, hp⟩ := hst
        obtain ⟨k1, k2, k3⟩ := pollInner_spec bud r s.now i a.head rs s.inner h hh hk
        generalize pollInner bud r s.now i s.inner rs = x at k1 k2 k3 ⊢
        obtain ⟨inner', ws, out⟩ := x
        dsimp only at k1 k2 k3 ⊢
        refine ⟨by rw [hc]; exact hnow, by rw [ha]; simp [hlen], by rw [ha, k1]; exact hilen, ?_, ?_, ?_⟩
        · rw [ha]
          intro e he
          simp only [List.mem_append, List.mem_map] at he
          rcases he with he | ⟨w, -, rfl⟩
          · exact hbound e he
          · rw [← hlen]; exact hi
        · rw [ha]
          intro j a' hj
          by_cases hji : j = i
          · subst hji
            rw [hai] at hj
            cases hj
            refine ⟨⟨dl, out.or (expire s.now r dl)⟩, by simp [hi], hf.deadline, begins_append hf.begins, ?_⟩
            rw [whatsOf_append, whatsOf_same]
            rcases k3 with ⟨rfl, hk', h', hh', hp'⟩ | ⟨o, rfl, -, hp'⟩
            · cases hx : expire s.now r dl with
              | none =>
                left
                refine ⟨rfl, hk', h', hh', ?_⟩
                simp only [Option.none_or, Option.map_none, Option.toList_none, List.append_nil]
                exact hp.append hp'
              | some o =>
                right
                have ho : ∃ t, r.timeout = some t ∧ o = .timedOut t := by
                  unfold expire at hx
                  split at hx
                  · rename_i d t ht
                    split at hx
                    · cases hx; exact ⟨t, ht, rfl⟩
                    · cases hx
                  · cases hx
                obtain ⟨t, ht, rfl⟩ := ho
                refine ⟨⟨_, rfl, ⟨j, s.now, .over (.timedOut t)⟩, ?_, rfl, rfl⟩, ?_⟩
                · simp
                · simp only [Option.none_or, Option.map_some, Option.toList_some]
                  exact hp.append (hp'.append (.cons (.timeout h' t ht) (.nil _)))
            · right
              refine ⟨⟨o, rfl, ⟨j, s.now, .over o⟩, ?_, rfl, rfl⟩, ?_⟩
              · simp
              · simp only [Option.some_or, Option.map_some, Option.toList_some]
                exact hp.append hp'
          · obtain ⟨q, hq', hf'⟩ := heach j a' hj
            refine ⟨q, ?_, hf'.other (Ne.symm hji) (k2 j hji)⟩
            simp only [List.getElem?_set, Ne.symm hji, if_false]
            exact hq'
        · rw [ha]
          intro e he t ht
          simp only [List.mem_append, List.mem_map] at he
          rcases he with he | ⟨w, hw, rfl⟩
          · exact hlate e he t ht
          · refine ⟨a, hai, ?_⟩
            dsimp only at ht ⊢
            subst ht
            rcases hw with hw | hw
            · exfalso
              have : ∀ {st ws st'}, Path r a.head st ws st' → .over (.timedOut t) ∈ ws → ∃ ws', ws = ws' ++ [.over (.timedOut t)] := by
                intro st ws st' hp hm
                induction hp with
                | nil => cases hm
                | cons g hp ih =>
                  rcases List.mem_cons.1 hm with rfl | hm
                  · cases g with
                    | timeout =>
                      cases hp with
                      | nil => exact ⟨[], rfl⟩
                      | cons g' _ => cases g'
                  · obtain ⟨ws', rfl⟩ := ih hm
                    exact ⟨_ :: ws', rfl⟩
              have stuck : ∀ {st w}, ¬ Goes r a.head .over w st := by intro st w g; cases g
              have noend : ∀ {st ws st'}, Path r a.head st (ws ++ [.over (.timedOut t)]) st' → st' = .over := by
                intro st ws st' hp
                induction ws generalizing st with
                | nil =>
                  cases hp with
                  | cons g hp =>
                    cases g
                    cases hp
                    rfl
                | cons w ws ih =>
                  cases hp with
                  | cons g hp => exact ih hp
              rcases k3 with ⟨-, -, h', -, hp'⟩ | ⟨o, -, hno, hp'⟩
              · obtain ⟨ws', rfl⟩ := this hp' hw
                cases noend hp'
              · obtain ⟨ws', hws⟩ := this hp' (List.mem_append_left _ hw)
                have := List.append_inj' hws rfl
                have h2 := this.2
                simp only [List.cons.injEq, and_true, What.over.injEq] at h2
                exact hno t h2
            · rcases k3 with ⟨rfl, -⟩ | ⟨o, rfl, hno, -⟩
              · cases hx : expire s.now r dl with
                | none => rw [hx] at hw; simp at hw
                | some o =>
                  rw [hx] at hw
                  simp only [Option.none_or, Option.map_some, Option.toList_some, List.mem_singleton, What.over.injEq] at hw
                  subst hw
                  unfold expire at hx
                  have hd := hf.deadline
                  dsimp only at hd
                  split at hx
                  · rename_i d t' ht'
                    split at hx
                    · rename_i hle
                      simp only [Option.some.injEq, Outcome.timedOut.injEq] at hx
                      subst hx
                      rw [ht'] at hd
                      simp only [Option.map_some, Option.some.injEq] at hd
                      omega
                    · cases hx
                  · cases hx
              · simp only [Option.some_or, Option.map_some, Option.toList_some, List.mem_singleton, What.over.injEq] at hw
                exact absurd hw.symm (hno t)
      · simp only [List.append_nil]
        exact ⟨by rw [hc]; exact hnow, by rw [ha]; exact hlen, by rw [ha]; exact hilen, by rw [ha]; exact hbound,
          by rw [ha]; exact heach, by rw [ha]; exact hlate⟩

/-! ## The theorems -/

/-- In every history, what happens to a request is an exchange: it is sent at once, and its attempts carry what they should;
only failures are tried again; it ends at most once, with the result of its last attempt if that is there, and after that
nothing happens to it. Nothing happens to requests that have not arrived. -/
theorem C125_exchange (bud : Budget B) (r : Route) (b : B) (ops : List Op) :
    (∀ i a, (arrivals ops)[i]? = some a →
      (∃ h tl, eventsOf i (run bud r (init b) ops).2 = ⟨i, a.time, .attempt h⟩ :: tl) ∧
        ∃ st, Path r a.head .fresh (whatsOf i (run bud r (init b) ops).2) st) ∧
      ∀ e ∈ (run bud r (init b) ops).2, ∃ a, (arrivals ops)[e.req]? = some a := by
  have h := inv bud r b ops
  refine ⟨?_, ?_⟩
  · intro i a hi
    obtain ⟨q, -, hf⟩ := h.each i a hi
    refine ⟨hf.begins, ?_⟩
    rcases hf.stage with ⟨-, -, x, -, hp⟩ | ⟨-, hp⟩
    · exact ⟨_, hp⟩
    · exact ⟨_, hp⟩
  · intro e he
    exact ⟨_, List.getElem?_eq_getElem (h.bound e he)⟩

/-- All the attempts of a request together have the route's timeout: a request times out only when it has waited that long
since it arrived, however often it was tried; and when its future is polled from then on it is over, whatever the results
that came in. -/
theorem C125_timeout (bud : Budget B) (r : Route) (b : B) (ops : List Op) :
    (∀ e ∈ (run bud r (init b) ops).2, ∀ t, e.what = .over (.timedOut t) →
      ∃ a, (arrivals ops)[e.req]? = some a ∧ a.time + t ≤ e.time ∧ r.timeout = some t) ∧
    (∀ i a t rs, (arrivals ops)[i]? = some a → r.timeout = some t → a.time + t ≤ clock ops →
      ∃ e ∈ (run bud r (init b) (ops ++ [.poll i rs])).2, e.req = i ∧ ∃ o, e.what = .over o) := by
  have h := inv bud r b ops
  refine ⟨?_, ?_⟩
  · intro e he t ht
    obtain ⟨a, ha, hl⟩ := h.late e he t ht
    refine ⟨a, ha, hl, ?_⟩
    obtain ⟨q, -, hf⟩ := h.each e.req a ha
    have hm : .over (.timedOut t) ∈ whatsOf e.req (run bud r (init b) ops).2 := by
      rw [← ht]
      exact List.mem_map.2 ⟨e, List.mem_filter.2 ⟨he, by simp⟩, rfl⟩
    have key : ∀ {st ws st'}, Path r a.head st ws st' → What.over (.timedOut t) ∈ ws → r.timeout = some t := by
      intro st ws st' hp hm
      induction hp with
      | nil => cases hm
      | cons g hp ih =>
        rcases List.mem_cons.1 hm with rfl | hm
        · cases g with
          | timeout _ _ ht => exact ht
        · exact ih hm
    rcases hf.stage with ⟨-, -, x, -, hp⟩ | ⟨-, hp⟩
    · exact key hp hm
    · exact key hp hm
  · intro i a t rs hi ht hle
    have h' := inv bud r b (ops ++ [.poll i rs])
    have ha : arrivals (ops ++ [.poll i rs]) = arrivals ops := (clock_snoc ops _).2
    obtain ⟨q, hq, hf⟩ := h'.each i a (by rw [ha]; exact hi)
    obtain ⟨q0, hq0, hf0⟩ := h.each i a hi
    rcases hf.stage with ⟨hn, -⟩ | ⟨⟨o, -, e, he, hr, hw⟩, -⟩
    · exfalso
      rw [run_snoc] at hq
      have hnow := h.now
      have hd := hf0.deadline
      generalize (run bud r (init b) ops).1 = s at hq hq0 hnow
      obtain ⟨dl, out⟩ := q0
      have hi' : i < s.reqs.length := lt_of_getElem?_some hq0
      dsimp only at hd
      rw [ht, Option.map_some] at hd
      cases out with
      | some o =>
        have : step bud r s (.poll i rs) = (s, []) := by simp only [step, hq0]
        rw [this] at hq
        dsimp only at hq
        rw [hq0] at hq
        cases hq
        cases hn
      | none =>
        simp only [step, hq0] at hq
        simp only [List.getElem?_set_self hi'] at hq
        cases hq
        dsimp only at hn
        rw [Option.or_eq_none_iff] at hn
        have hx := hn.2
        have hle' : a.time + t ≤ s.now := by omega
        simp [expire, hd, ht, hle'] at hx
    · exact ⟨e, he, hr, o, hw⟩

/-- A request that timed out is answered with 504, or as gRPC with `DEADLINE_EXCEEDED` (4). -/
theorem C125_timeout_reply (text : Str) :
    ∃ s, ErrorRespond.outboundServer (timeoutError text) = some s ∧ s.httpStatus = 504 ∧ s.grpcStatus = .deadlineExceeded :=
  ⟨_, rfl, rfl, rfl⟩

/-- Whether an event is an attempt. -/
def isAttempt (e : Event) : Bool := match e.what with | .attempt _ => true | _ => false

theorem pollInner_run (bud : Budget B) (r : Route) (now i : Nat) (rs : List (Result × Option Bool))
    (s : ProfileRetry.State B) :
    ∃ iops, (ProfileRetry.run bud r.retries r.classes s iops).1 = (pollInner bud r now i s rs).1 ∧
      requests (ProfileRetry.run bud r.retries r.classes s iops).2 = 0 ∧
      (resendTimes (ProfileRetry.run bud r.retries r.classes s iops).2).length =
        (((pollInner bud r now i s rs).2.1).map (⟨i, now, ·⟩ : What → Event)).countP isAttempt ∧
      (ProfileRetry.run bud r.retries r.classes s iops).2.countP (fun e => decide (e.2.1 = .unready)) = 0 := by
  have never : ∀ (s : ProfileRetry.State B) res capped,
      (ProfileRetry.step bud r.retries r.classes s (.answer i now res capped true)).2.1 ≠ .unready := by
    intro s res capped
    simp only [ProfileRetry.step]
    split
    · split <;> simp
    · simp
    · simp
  induction rs generalizing s with
  | nil => exact ⟨[], rfl, rfl, rfl, rfl⟩
  | cons x rs ih =>
    obtain ⟨res, capped⟩ := x
    cases hx : (ProfileRetry.step bud r.retries r.classes s (.answer i now res capped true)).2.1 with
    | resent h =>
      obtain ⟨iops, h1, h2, h3, h4⟩ := ih (ProfileRetry.step bud r.retries r.classes s (.answer i now res capped true)).1
      refine ⟨.answer i now res capped true :: iops, ?_, ?_, ?_, ?_⟩
      · simp only [ProfileRetry.run, pollInner, hx]; exact h1
      · simp only [ProfileRetry.run, requests, List.countP_cons]
        simp only [requests] at h2
        rw [h2]
        rfl
      · simp only [ProfileRetry.run, pollInner, hx, resendTimes, List.filterMap_cons]
        simp only [resendTimes] at h3
        generalize ProfileRetry.step bud r.retries r.classes s (.answer i now res capped true) = y at hx h1 h3 ⊢
        obtain ⟨y1, y2, y3⟩ := y
        dsimp only at hx h3 ⊢
        subst hx
        simp only [List.length_cons, h3, List.map_cons, List.countP_cons, isAttempt]
        simp
      · simp only [ProfileRetry.run, List.countP_cons, h4]
        simp [never]
    | returned =>
      refine ⟨[.answer i now res capped true], by simp only [ProfileRetry.run, pollInner, hx], rfl, ?_,
        by simp [ProfileRetry.run, never]⟩
      simp only [ProfileRetry.run, pollInner, hx, resendTimes]
      generalize ProfileRetry.step bud r.retries r.classes s (.answer i now res capped true) = y at hx ⊢
      obtain ⟨y1, y2, y3⟩ := y
      dsimp only at hx ⊢
      subst hx
      rfl
    | sent h =>
      refine ⟨[.answer i now res capped true], by simp only [ProfileRetry.run, pollInner, hx], rfl, ?_,
        by simp [ProfileRetry.run, never]⟩
      simp only [ProfileRetry.run, pollInner, hx, resendTimes]
      generalize ProfileRetry.step bud r.retries r.classes s (.answer i now res capped true) = y at hx ⊢
      obtain ⟨y1, y2, y3⟩ := y
      dsimp only at hx ⊢
      subst hx
      rfl
    | unready =>
      refine ⟨[.answer i now res capped true], by simp only [ProfileRetry.run, pollInner, hx], rfl, ?_,
        by simp [ProfileRetry.run, never]⟩
      simp only [ProfileRetry.run, pollInner, hx, resendTimes]
      generalize ProfileRetry.step bud r.retries r.classes s (.answer i now res capped true) = y at hx ⊢
      obtain ⟨y1, y2, y3⟩ := y
      dsimp only at hx ⊢
      subst hx
      rfl
    | absent =>
      refine ⟨[.answer i now res capped true], by simp only [ProfileRetry.run, pollInner, hx], rfl, ?_,
        by simp [ProfileRetry.run, never]⟩
      simp only [ProfileRetry.run, pollInner, hx, resendTimes]
      generalize ProfileRetry.step bud r.retries r.classes s (.answer i now res capped true) = y at hx ⊢
      obtain ⟨y1, y2, y3⟩ := y
      dsimp only at hx ⊢
      subst hx
      rfl

theorem retry_run_append (bud : Budget B) (p : Bool) (cl : List ResponseClass) (s : ProfileRetry.State B)
    (a c : List ProfileRetry.Op) :
    ProfileRetry.run bud p cl s (a ++ c) =
      ((ProfileRetry.run bud p cl (ProfileRetry.run bud p cl s a).1 c).1,
        (ProfileRetry.run bud p cl s a).2 ++ (ProfileRetry.run bud p cl (ProfileRetry.run bud p cl s a).1 c).2) := by
  induction a generalizing s with
  | nil => rfl
  | cons x a ih => simp [ProfileRetry.run, ih]

theorem inner_history (bud : Budget B) (r : Route) (b : B) (ops : List Op) :
    ∃ iops, (ProfileRetry.run bud r.retries r.classes (ProfileRetry.init b) iops).1 = (run bud r (init b) ops).1.inner ∧
      requests (ProfileRetry.run bud r.retries r.classes (ProfileRetry.init b) iops).2 = (arrivals ops).length ∧
      (arrivals ops).length + (resendTimes (ProfileRetry.run bud r.retries r.classes (ProfileRetry.init b) iops).2).length =
        (run bud r (init b) ops).2.countP isAttempt ∧
      (ProfileRetry.run bud r.retries r.classes (ProfileRetry.init b) iops).2.countP
        (fun e => decide (e.2.1 = .unready)) = 0 := by
  induction ops using snoc_induction with
  | nil => exact ⟨[], rfl, rfl, rfl, rfl⟩
  | snoc ops o ih =>
    obtain ⟨iops, h1, h2, h3, h4⟩ := ih
    rw [run_snoc, (clock_snoc ops o).2]
    generalize (run bud r (init b) ops).1 = s at h1 ⊢
    generalize (run bud r (init b) ops).2 = tr at h3 ⊢
    cases o with
    | pass ms => exact ⟨iops, h1, h2, by simpa [step, note] using h3, h4⟩
    | drop i =>
      simp only [step]
      split
      · exact ⟨iops, h1, h2, by simpa [note, isAttempt] using h3, h4⟩
      · exact ⟨iops, h1, h2, by simpa [note] using h3, h4⟩
    | poll i rs =>
      simp only [step]
      split
      · rename_i dl hq
        obtain ⟨jops, k1, k2, k3, k4⟩ := pollInner_run bud r s.now i rs s.inner
        refine ⟨iops ++ jops, ?_, ?_, ?_, by rw [retry_run_append, h1, List.countP_append, h4, k4]⟩
        · rw [retry_run_append, h1]; exact k1
        · rw [retry_run_append, h1]
          simp only [requests, List.countP_append] at h2 k2 ⊢
          rw [h2, k2]; rfl
        · rw [retry_run_append, h1]
          simp only [resendTimes, List.filterMap_append, List.length_append, List.countP_append, List.map_append] at h3 k3 ⊢
          rw [k3]
          have : ((((pollInner bud r s.now i s.inner rs).2.2.or (expire s.now r dl)).map What.over).toList.map
              (⟨i, s.now, ·⟩ : What → Event)).countP isAttempt = 0 := by
            cases ((pollInner bud r s.now i s.inner rs).2.2.or (expire s.now r dl)) <;> rfl
          rw [this]
          simp only [note]
          omega
      · exact ⟨iops, h1, h2, by simpa [note] using h3, h4⟩
    | call head tooLarge =>
      refine ⟨iops ++ [.call (prepare r head) tooLarge], ?_, ?_, ?_, ?_⟩
      rotate_left 3
      · rw [retry_run_append, List.countP_append, h4]
        simp only [ProfileRetry.run, ProfileRetry.step]
        split <;> rfl
      · rw [retry_run_append, h1]
        simp only [step, ProfileRetry.run, ProfileRetry.step]
        split <;> rfl
      · rw [retry_run_append]
        simp only [requests, List.countP_append] at h2 ⊢
        rw [h2]
        simp [ProfileRetry.run, note]
      · rw [retry_run_append]
        have hz : resendTimes (ProfileRetry.run bud r.retries r.classes
            (ProfileRetry.run bud r.retries r.classes (ProfileRetry.init b) iops).1 [.call (prepare r head) tooLarge]).2 = [] := by
          simp [resendTimes, ProfileRetry.run]
        have ho : (step bud r s (.call head tooLarge)).2.countP isAttempt = 1 := by
          simp only [step, ProfileRetry.step]
          cases (r.retries && !tooLarge) <;> rfl
        simp only [resendTimes, List.filterMap_append, List.length_append, List.countP_append] at h3 hz ⊢
        rw [hz, ho]
        simp [note] at h3 ⊢
        omega

/-- With a budget whose grants cost `cost` tokens, of which it has `reserve` and gets `gain` for each request that ends with
a result, the attempts of a route beyond its requests are no more than that pays for: however many requests time out or are
given up, and whenever. -/
theorem C125_attempts_within_budget (bud : Budget B) (r : Route) (b : B) (reserve cost gain : Nat)
    (hb : Bounded bud b reserve cost gain) (ops : List Op) :
    cost * ((run bud r (init b) ops).2.countP isAttempt - (arrivals ops).length) ≤ reserve + gain * (arrivals ops).length ∧
      (arrivals ops).length ≤ (run bud r (init b) ops).2.countP isAttempt := by
  obtain ⟨iops, -, h2, h3, -⟩ := inner_history bud r b ops
  have h4 := C50_budget_is_not_exceeded bud r.retries r.classes b reserve cost gain hb iops
  rw [h2] at h4
  refine ⟨?_, by omega⟩
  rw [← h3, Nat.add_sub_cancel_left]
  exact h4

/-- Every attempt beyond the first of a request is counted: `retryable_total` counts the failures for which the budget was
asked, and without those of them that are labelled `skipped="no_budget"` it is the number of attempts beyond the first. -/
theorem C125_retries_counted (bud : Budget B) (r : Route) (b : B) (ops : List Op) :
    (run bud r (init b) ops).2.countP isAttempt =
      (arrivals ops).length + ((run bud r (init b) ops).1.inner.counters.retryable -
        (run bud r (init b) ops).1.inner.counters.noBudget) := by
  obtain ⟨iops, h1, -, h3, h4⟩ := inner_history bud r b ops
  obtain ⟨-, -, h5⟩ := C50_counters bud r.retries r.classes b iops
  rw [h1] at h5
  rw [h4] at h5
  omega

/-- A route without retries sends each request once. -/
theorem C125_no_retries (bud : Budget B) (r : Route) (b : B) (hr : r.retries = false) (ops : List Op) :
    (run bud r (init b) ops).2.countP isAttempt = (arrivals ops).length := by
  obtain ⟨iops, -, -, h3, -⟩ := inner_history bud r b ops
  have key : ∀ (iops : List ProfileRetry.Op) (s : ProfileRetry.State B), (∀ l ∈ s.reqs, l = .plain ∨ l = .over) →
      resendTimes (ProfileRetry.run bud false r.classes s iops).2 = [] := by
    intro iops
    induction iops with
    | nil => intro s _; rfl
    | cons o os ih =>
      intro s hs
      have hstep : (∀ l ∈ (ProfileRetry.step bud false r.classes s o).1.reqs, l = .plain ∨ l = .over) ∧
          ∀ h, (ProfileRetry.step bud false r.classes s o).2.1 ≠ .resent h := by
        cases o with
        | call head tl =>
          simp only [ProfileRetry.step, Bool.false_and, Bool.false_eq_true, if_false]
          refine ⟨?_, by simp⟩
          intro l hl
          simp only [List.mem_append, List.mem_singleton] at hl
          rcases hl with hl | rfl
          · exact hs l hl
          · exact .inl rfl
        | answer i now res capped ready =>
          cases hi : s.reqs[i]? with
          | none => simp only [ProfileRetry.step, hi]; exact ⟨hs, by simp⟩
          | some l =>
            rcases hs l (List.mem_of_getElem? hi) with rfl | rfl
            · simp only [ProfileRetry.step, hi]
              refine ⟨?_, by simp⟩
              intro l hl
              rcases List.mem_or_eq_of_mem_set hl with hl | rfl
              · exact hs l hl
              · exact .inr rfl
            · simp only [ProfileRetry.step, hi]; exact ⟨hs, by simp⟩
      have := ih _ hstep.1
      simp only [ProfileRetry.run, resendTimes, List.filterMap_cons] at this ⊢
      rw [this]
      have hno := hstep.2
      generalize ProfileRetry.step bud false r.classes s o = y at hno
      obtain ⟨y1, y2, y3⟩ := y
      cases o with
      | call => rfl
      | answer =>
        cases y2 with
        | resent h => exact absurd rfl (hno h)
        | _ => rfl
  rw [hr] at h3
  rw [key iops (ProfileRetry.init b) (by intro l hl; cases hl)] at h3
  simpa using h3.symm

/-! ## A history -/

private def exRoute : Route := ⟨"web.ns.svc.cluster.local:80".toList, some 100, true, [], fun _ => 3⟩

private def exHead : Head :=
  ⟨"GET".toList, "/".toList, 2, [("l5d-dst-canonical", "forged:1".toList), ("x", "y".toList)], [.client 7, .other "z"]⟩

private def exOps : List Op :=
  [.call exHead false, .pass 60, .poll 0 [(.response 503 [] none, some false)], .call exHead false, .pass 50,
   .poll 0 [], .poll 1 [(.response 503 [] none, some false), (.response 200 [] none, some false)], .pass 100, .poll 0 []]

private def exAgain : Head :=
  ⟨"GET".toList, "/".toList, 2, [("x", "y".toList), ("l5d-dst-canonical", "web.ns.svc.cluster.local:80".toList)],
    [.other "route", .client 7, .classify 3]⟩

private def exFirst : Head := { exAgain with extensions := [.other "route", .classify 3, .client 7, .other "z"] }

/-- The first request is tried again after 60 ms and times out 100 ms after it came; the second gets a response, at the
second attempt. -/
example : (run (bucket 1 1) exRoute (init 5) exOps).2 =
    [⟨0, 0, .attempt exFirst⟩, ⟨0, 60, .answered (.response 503 [] none) (some false)⟩, ⟨0, 60, .attempt exAgain⟩,
     ⟨1, 60, .attempt exFirst⟩, ⟨0, 110, .over (.timedOut 100)⟩,
     ⟨1, 110, .answered (.response 503 [] none) (some false)⟩, ⟨1, 110, .attempt exAgain⟩,
     ⟨1, 110, .answered (.response 200 [] none) (some false)⟩, ⟨1, 110, .over (.response 200 [])⟩] := rfl

example : (arrivals exOps).map Arrival.time = [0, 60] ∧ clock exOps = 210 := by decide
example : (arrivals exOps)[0]? = some ⟨0, exHead⟩ := rfl
example : Bounded (bucket 1 1) 5 5 1 1 := bucket_bounded 1 1 5

end Verif.ProfileRoute
