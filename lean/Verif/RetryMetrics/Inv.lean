import Verif.Common.List
import Verif.RetryMetrics.Steps

/-!
# Metrics of outbound routes, with retries: the invariant
-/

namespace Verif.RetryMetrics

open Verif Verif.Prom

variable {Q B E S L : Type}

theorem sum_set {A : Type} (g : A → Nat) (l : List A) (i : Nat) (x y : A) (h : l[i]? = some x) :
    ((l.set i y).map g).sum + g x = (l.map g).sum + g y := by
  induction l generalizing i with
  | nil => cases h
  | cons a l ih =>
    cases i with
    | zero => cases h; simp [Nat.add_comm, Nat.add_left_comm]
    | succ i =>
      have := ih i h
      simp only [List.set_cons_succ, List.map_cons, List.sum_cons]
      omega

theorem sum_grow {A : Type} (g : A → Nat) (l : List A) (i : Nat) (x y : A) (h : l[i]? = some x) (n k : Nat) (hn : n ≤ (l.map g).sum)
    (hk : g x + k ≤ g y) : n + k ≤ ((l.set i y).map g).sum := by
  have := sum_set g l i x y h
  omega

theorem sum_ite {A : Type} (p : A → Bool) (l : List A) : (l.map fun x => if p x = true then 1 else 0).sum = l.countP p := by
  induction l with
  | nil => rfl
  | cons a l ih => rw [List.map_cons, List.sum_cons, List.countP_cons, ih]; omega

theorem perm_set {A : Type} (g : A → List Nat) (l : List A) (i : Nat) (x y : A) (out : List Nat) (h : l[i]? = some x)
    (hy : g y = g x ++ out) : ((l.set i y).flatMap g).Perm (l.flatMap g ++ out) := by
  induction l generalizing i with
  | nil => cases h
  | cons a l ih =>
    cases i with
    | zero =>
      cases h
      simp only [List.set_cons_zero, List.flatMap_cons, hy, List.append_assoc]
      exact List.perm_append_left_iff _ |>.2 List.perm_append_comm
    | succ i =>
      simp only [List.set_cons_succ, List.flatMap_cons, List.append_assoc]
      exact List.perm_append_left_iff _ |>.2 (ih i h)

theorem disjoint_of {A : Type} (g : A → List Nat) (l : List A) (h : (l.flatMap g).Nodup) (i j : Nat) (x y : A) (hij : i ≠ j)
    (hi : l[i]? = some x) (hj : l[j]? = some y) (a : Nat) (ha : a ∈ g x) : a ∉ g y := by
  induction l generalizing i j with
  | nil => cases hi
  | cons b l ih =>
    rw [List.flatMap_cons, List.nodup_append] at h
    obtain ⟨-, h2, h3⟩ := h
    cases i with
    | zero =>
      cases hi
      cases j with
      | zero => exact absurd rfl hij
      | succ j =>
        intro hy
        exact h3 a ha a (List.mem_flatMap.2 ⟨y, List.mem_of_getElem? hj, hy⟩) rfl
    | succ i =>
      cases j with
      | zero =>
        cases hj
        intro hy
        exact h3 a hy a (List.mem_flatMap.2 ⟨x, List.mem_of_getElem? hi, ha⟩) rfl
      | succ j => exact ih h2 i j (fun e => hij (by omega)) hi hj

/-- The response is what the route's filters made of the one that the last attempt of the request got. -/
def Src (fil : Rsp → Rsp) (blog : List (Prom.Op B E)) (f : Flight E) (r : Rsp) : Prop :=
  ∃ a r0 t, f.attempts.getLast? = some a ∧ (transcripts blog)[a]? = some t ∧ Answered t r0 ∧ r = fil r0

variable [DecidableEq Q]

structure Inv (fil : Q → Rsp → Rsp) (w : World Q B E) : Prop where
  sent : (transcripts w.backendLog).length = w.sent
  rlen : (transcripts w.routeLog).length = w.flights.length
  req : ∀ (i : Nat) (x : Q × Flight E), w.flights[i]? = some x → ∃ t, (transcripts w.routeLog)[i]? = some t ∧ t.2.1 = x.1 ∧ life t = x.2.stage.route ∧
    ∀ r, Answered t r → x.2.stage.route ≠ .future ∧ Src (fil x.1) w.backendLog x.2 r
  perm : (w.flights.flatMap (·.2.attempts)).Perm (List.range w.sent)
  wf : ∀ (i : Nat) (x : Q × Flight E), w.flights[i]? = some x → WF x.2
  holds : ∀ (i : Nat) (x : Q × Flight E), w.flights[i]? = some x → ∀ a ∈ x.2.stage.holds, a ∈ x.2.attempts
  role : ∀ (i : Nat) (x : Q × Flight E), w.flights[i]? = some x → ∀ a ∈ x.2.attempts, ∃ t, (transcripts w.backendLog)[a]? = some t ∧ life t = x.2.stage.role a
  src : ∀ (i : Nat) (x : Q × Flight E), w.flights[i]? = some x → ∀ r, x.2.stage.rsp? = some r → Src (fil x.1) w.backendLog x.2 r
  retries : ∀ q, w.requests.count q = (w.flights.map fun x => if x.1 = q then x.2.tries - 1 else 0).sum
  fin : ∀ q, w.successes.count q + w.limitExceeded.count q + w.overflow.count q ≤
    (w.flights.map fun x => if x.1 = q ∧ x.2.stage.route ≠ .future then 1 else 0).sum
  limit : ∀ q, w.limitExceeded.count q ≤
    (w.flights.map fun x => if x.1 = q ∧ x.2.stage.route ≠ .future ∧ x.2.tries = 1 + x.2.retry.getD 0 then 1 else 0).sum
  success : ∀ q, w.successes.count q ≤
    (w.flights.map fun x => if x.1 = q ∧ x.2.stage.route ≠ .future ∧ 2 ≤ x.2.tries then 1 else 0).sum

theorem inv_init (fil : Q → Rsp → Rsp) : Inv (B := B) (E := E) fil ⟨[], [], [], 0, [], [], [], []⟩ := by
  constructor <;> simp [transcripts]

theorem count_ite (l : List Q) (b : Bool) (x q : Q) :
    (l ++ if b then [x] else []).count q = l.count q + if x = q ∧ b = true then 1 else 0 := by
  cases b with
  | false => simp
  | true => by_cases h : x = q <;> simp [h]

theorem inv_call (fil : Q → Rsp → Rsp) (w : World Q B E) (h : Inv fil w) (now : Nat) (q : Q) (retry : Option Nat) :
    Inv fil { w with flights := w.flights ++ [(q, ⟨retry, 0, [], .fresh⟩)], routeLog := w.routeLog ++ [.call now q] } := by
  have split : ∀ (P : Nat → Q × Flight E → Prop), (∀ (i : Nat) (x : Q × Flight E), w.flights[i]? = some x → P i x) → P w.flights.length (q, ⟨retry, 0, [], .fresh⟩) →
      ∀ i x, (w.flights ++ [(q, ⟨retry, 0, [], .fresh⟩)])[i]? = some x → P i x := by
    intro P h1 h2 i x hx
    by_cases hi : i < w.flights.length
    · rw [List.getElem?_append_left hi] at hx
      exact h1 i x hx
    · by_cases he : i = w.flights.length
      · subst he
        simp at hx
        subst hx
        exact h2
      · have : i ≥ (w.flights ++ [(q, (⟨retry, 0, [], .fresh⟩ : Flight E))]).length := by simp; omega
        rw [List.getElem?_eq_none this] at hx
        cases hx
  refine ⟨h.sent, ?_, split _ ?_ ?_, ?_, split _ h.wf ?_, split _ h.holds (by simp [Stage.holds]), split _ h.role (by simp),
    split _ h.src (by simp [Stage.rsp?]), ?_, ?_, ?_, ?_⟩
  · rw [transcripts_call]; simp [h.rlen]
  · intro i x hx
    obtain ⟨t, h1, h2⟩ := h.req i x hx
    refine ⟨t, ?_, h2⟩
    rw [transcripts_call, List.getElem?_append_left (lt_of_getElem?_some h1)]
    exact h1
  · refine ⟨(now, q, []), ?_, rfl, rfl, ?_⟩
    · rw [transcripts_call, ← h.rlen]; simp
    · rintro r ⟨n, e, hm⟩; cases hm
  · simpa using h.perm
  · constructor <;> simp [Stage.holds, Stage.route, Stage.plain]
  · intro q'; simp [h.retries q']
  · intro q'; simpa [Stage.route] using h.fin q'
  · intro q'; simpa [Stage.route] using h.limit q'
  · intro q'; simpa [Stage.route] using h.success q'

/-- What a step adds to what the backends' recorder was told. -/
theorem backend_get (blog : List (Prom.Op B E)) (now : Nat) (l : List (Nat × Prom.Ev E)) (calls : List B) (a : Nat) (t : Transcript B E)
    (h : (transcripts blog)[a]? = some t) :
    (transcripts (blog ++ told now l ++ calls.map (.call now)))[a]? = some (t.1, t.2.1, t.2.2 ++ forOne now a l) := by
  have hl : a < (transcripts (blog ++ told now l)).length := by rw [told_length]; exact lt_of_getElem?_some h
  rw [calls_eq, List.getElem?_append_left hl, told_get, h]
  rfl

theorem src_mono (fil : Rsp → Rsp) (blog : List (Prom.Op B E)) (now : Nat) (l : List (Nat × Prom.Ev E)) (calls : List B) (f f' : Flight E) (r : Rsp)
    (ha : f'.attempts = f.attempts) (h : Src fil blog f r) : Src fil (blog ++ told now l ++ calls.map (.call now)) f' r := by
  obtain ⟨a, r0, t, h1, h2, ⟨n, e, h3⟩, h4⟩ := h
  refine ⟨a, r0, _, by rw [ha]; exact h1, backend_get blog now l calls a t h2, ⟨n, e, ?_⟩, h4⟩
  simp [h3]

theorem inv_on (fil : Q → Rsp → Rsp) (w : World Q B E) (h : Inv fil w) (i now : Nat) (q : Q) (f f' : Flight E) (o : Out B E)
    (hi : w.flights[i]? = some (q, f)) (ok : StepOk (fil q) w.sent now f f' o) :
    Inv fil
        { flights := w.flights.set i (q, f')
          routeLog := w.routeLog ++ o.route.map (.on i now)
          backendLog := w.backendLog ++ told now o.backend ++ o.calls.map (.call now)
          sent := w.sent + o.calls.length
          requests := w.requests ++ if o.requests then [q] else []
          successes := w.successes ++ if o.successes then [q] else []
          limitExceeded := w.limitExceeded ++ if o.limitExceeded then [q] else []
          overflow := w.overflow ++ if o.overflow then [q] else [] } := by
  have hlt := lt_of_getElem?_some hi
  have split : ∀ (P : Nat → Q × Flight E → Prop), (∀ j x, j ≠ i → w.flights[j]? = some x → P j x) → P i (q, f') →
      ∀ j x, (w.flights.set i (q, f'))[j]? = some x → P j x := by
    intro P h1 h2 j x hx
    by_cases hj : i = j
    · subst hj
      rw [List.getElem?_set_self hlt] at hx
      cases hx
      exact h2
    · rw [List.getElem?_set_ne hj] at hx
      exact h1 j x (fun e => hj e.symm) hx
  have hnd : (w.flights.flatMap (·.2.attempts)).Nodup := h.perm.nodup_iff.2 List.nodup_range
  have hat : ∀ (j : Nat) (x : Q × Flight E), w.flights[j]? = some x → ∀ a ∈ x.2.attempts, a < w.sent := by
    intro j x hx a ha
    obtain ⟨t, ht, -⟩ := h.role j x hx a ha
    rw [← h.sent]; exact lt_of_getElem?_some ht
  have other : ∀ (j : Nat) (x : Q × Flight E), j ≠ i → w.flights[j]? = some x → ∀ a ∈ x.2.attempts, forOne now a o.backend = [] := by
    intro j x hj hx a ha
    have hno := disjoint_of (fun x : Q × Flight E => x.2.attempts) _ hnd j i x (q, f) hj hx hi a ha
    unfold forOne
    rw [List.map_eq_nil_iff, List.filter_eq_nil_iff]
    intro e he hea
    simp only [decide_eq_true_eq] at hea
    exact hno (by rw [← hea]; exact h.holds i _ hi _ (ok.targets e he))
  have srcOf : ∀ r, Got (fil q) f o r → f'.attempts = f.attempts →
      Src (fil q) (w.backendLog ++ told now o.backend ++ o.calls.map (.call now)) f' r := by
    intro r hg ha
    rcases hg with hg | ⟨a, r0, e, h1, h2, h3⟩
    · exact src_mono _ _ _ _ _ f f' r ha (h.src i _ hi r hg)
    · obtain ⟨t, ht, -⟩ := h.role i _ hi a (List.mem_of_getLast? h3)
      refine ⟨a, r0, _, by rw [ha]; exact h3, backend_get _ now o.backend o.calls a t ht, ⟨now, e, ?_⟩, h2⟩
      simp only [List.mem_append]
      right
      unfold forOne
      exact List.mem_map.2 ⟨(a, .future (.ok r0 e)), List.mem_filter.2 ⟨h1, by simp⟩, rfl⟩
  refine ⟨?_, ?_, split _ ?_ ?_, ?_, split _ (fun j x _ hx => h.wf j x hx) ok.wf, split _ (fun j x _ hx => h.holds j x hx) ?_, split _ ?_ ?_,
    split _ ?_ ?_, ?_, ?_, ?_, ?_⟩
  · dsimp only
    rw [calls_eq, List.length_append, told_length, h.sent, List.length_map]
  · dsimp only
    rw [route_eq, told_length, h.rlen, List.length_set]
  · intro j x hj hx
    obtain ⟨t, h1, h2, h3, h4⟩ := h.req j x hx
    dsimp only
    rw [route_eq]
    refine ⟨t, ?_, h2, h3, fun r hr => ⟨(h4 r hr).1, src_mono _ _ _ _ _ x.2 x.2 r rfl (h4 r hr).2⟩⟩
    rw [told_get, h1, forOne_route, if_neg (fun e => hj e.symm)]
    simp
  · obtain ⟨t, h1, h2, h3, h4⟩ := h.req i _ hi
    dsimp only at h2 h3 h4 ⊢
    rw [route_eq, told_get, h1, forOne_route, if_pos rfl]
    refine ⟨_, rfl, h2, ?_, ?_⟩
    · unfold life at h3 ⊢
      dsimp only
      rw [after_append, h3]
      exact ok.route
    · rintro r ⟨n, e, hm⟩
      simp only [List.mem_append, List.mem_map] at hm
      rcases hm with hm | ⟨ev, hm, he⟩
      · obtain ⟨a1, a2⟩ := h4 r ⟨n, e, hm⟩
        have := ok.stays a1
        exact ⟨this.1, src_mono _ _ _ _ _ f f' r this.2.1 a2⟩
      · cases he
        have := ok.source r (.inr ⟨e, hm⟩)
        exact ⟨ok.answers ⟨r, e, hm⟩, srcOf r this.1 this.2⟩
  · rcases ok.calls with ⟨h1, h2⟩ | ⟨b, h1, h2, h3⟩
    · rw [h1]
      have := perm_set (fun x : Q × Flight E => x.2.attempts) w.flights i (q, f) (q, f') [] hi (by simp [h2])
      simpa using this.trans (by simpa using h.perm)
    · rw [h1]
      have := perm_set (fun x : Q × Flight E => x.2.attempts) w.flights i (q, f) (q, f') [w.sent] hi h2
      dsimp only [List.length_cons, List.length_nil]
      rw [List.range_succ]
      exact this.trans (List.Perm.append_right _ h.perm)
  · intro a ha
    dsimp only at ha ⊢
    rcases ok.holds a ha with h1 | ⟨rfl, h2⟩
    · have := h.holds i _ hi a h1
      rcases ok.calls with ⟨-, h2⟩ | ⟨b, -, h2, -⟩ <;> rw [h2]
      · exact this
      · exact List.mem_append_left _ this
    · rcases ok.calls with ⟨h3, -⟩ | ⟨b, -, h3, -⟩
      · exact absurd h3 h2
      · rw [h3]; simp
  · intro j x hj hx a ha
    obtain ⟨t, h1, h2⟩ := h.role j x hx a ha
    refine ⟨_, backend_get _ now o.backend o.calls a t h1, ?_⟩
    rw [other j x hj hx a ha]
    simpa [life] using h2
  · intro a ha
    dsimp only at ha ⊢
    by_cases hold : a ∈ f.attempts
    · obtain ⟨t, h1, h2⟩ := h.role i _ hi a hold
      refine ⟨_, backend_get _ now o.backend o.calls a t h1, ?_⟩
      unfold life at h2 ⊢
      dsimp only at h2 ⊢
      rw [after_append, h2]
      exact ok.role a (hat i _ hi a hold)
    · rcases ok.calls with ⟨-, h2⟩ | ⟨b, h1, h2, h3⟩
      · rw [h2] at ha; exact absurd ha hold
      · rw [h2] at ha
        have : a = w.sent := by simpa [hold] using ha
        subst this
        refine ⟨(now, b, []), ?_, by rw [h3]; rfl⟩
        rw [calls_eq, h1, List.getElem?_append_right (by rw [told_length, h.sent]; exact Nat.le_refl _), told_length, h.sent]
        simp
  · intro j x hj hx r hr
    exact src_mono _ _ _ _ _ x.2 x.2 r rfl (h.src j x hx r hr)
  · intro r hr
    have := ok.source r (.inl hr)
    exact srcOf r this.1 this.2
  · intro q'
    have h1 := sum_set (fun x : Q × Flight E => if x.1 = q' then x.2.tries - 1 else 0) w.flights i (q, f) (q, f') hi
    have h2 := h.retries q'
    have h3 := ok.tries
    dsimp only at h1 ⊢
    rw [count_ite]
    by_cases hq : q = q'
    · simp only [hq, if_true, true_and] at h1 ⊢
      omega
    · simp only [hq, if_false, false_and] at h1 ⊢
      omega
  · intro q'
    have h3 := ok.fin
    have h4 := ok.one
    have h5 := ok.stays
    dsimp only
    rw [count_ite, count_ite, count_ite]
    have := sum_grow (fun x : Q × Flight E => if x.1 = q' ∧ x.2.stage.route ≠ .future then 1 else 0) w.flights i (q, f) (q, f') hi _
      ((if q = q' ∧ o.successes = true then 1 else 0) + (if q = q' ∧ o.limitExceeded = true then 1 else 0) +
        (if q = q' ∧ o.overflow = true then 1 else 0)) (h.fin q') ?_
    · omega
    · dsimp only
      by_cases hq : q = q'
      · simp only [hq, true_and]
        by_cases hr : f.stage.route = .future
        · rw [if_neg (by simp [hr])]
          by_cases hx : o.successes = true ∨ o.limitExceeded = true ∨ o.overflow = true
          · rw [if_pos (h3 hx).2.1]; omega
          · simp only [not_or] at hx
            rw [if_neg hx.1, if_neg hx.2.1, if_neg hx.2.2]
            omega
        · have hx : ¬ (o.successes = true ∨ o.limitExceeded = true ∨ o.overflow = true) := fun hx => hr (h3 hx).1
          simp only [not_or] at hx
          rw [if_pos hr, if_pos (h5 hr).1, if_neg hx.1, if_neg hx.2.1, if_neg hx.2.2]
          omega
      · simp [hq]
  · intro q'
    have h3 := ok.fin
    have h4 := ok.limit
    have h5 := ok.stays
    have h6 := ok.retry
    dsimp only
    rw [count_ite]
    refine sum_grow (fun x : Q × Flight E => if x.1 = q' ∧ x.2.stage.route ≠ .future ∧ x.2.tries = 1 + x.2.retry.getD 0 then 1 else 0)
      w.flights i (q, f) (q, f') hi _ _ (h.limit q') ?_
    dsimp only
    by_cases hq : q = q'
    · simp only [hq, true_and]
      by_cases hr : f.stage.route = .future
      · rw [if_neg (fun e => e.1 hr)]
        by_cases hx : o.limitExceeded = true
        · obtain ⟨-, a1, a2⟩ := h3 (.inr (.inl hx))
          rw [if_pos hx, if_pos ⟨a1, by rw [a2, h6]; exact h4 hx⟩]
          omega
        · rw [if_neg hx]; omega
      · have hx : ¬ o.limitExceeded = true := fun hx => hr (h3 (.inr (.inl hx))).1
        obtain ⟨a1, -, a2⟩ := h5 hr
        rw [if_neg hx, a2, h6]
        by_cases hz : f.tries = 1 + f.retry.getD 0
        · rw [if_pos ⟨hr, hz⟩, if_pos ⟨a1, hz⟩]; omega
        · rw [if_neg (fun e => hz e.2)]; omega
    · simp [hq]
  · intro q'
    have h3 := ok.fin
    have h4 := ok.success
    have h5 := ok.stays
    dsimp only
    rw [count_ite]
    refine sum_grow (fun x : Q × Flight E => if x.1 = q' ∧ x.2.stage.route ≠ .future ∧ 2 ≤ x.2.tries then 1 else 0)
      w.flights i (q, f) (q, f') hi _ _ (h.success q') ?_
    dsimp only
    by_cases hq : q = q'
    · simp only [hq, true_and]
      by_cases hr : f.stage.route = .future
      · rw [if_neg (fun e => e.1 hr)]
        by_cases hx : o.successes = true
        · obtain ⟨-, a1, a2⟩ := h3 (.inl hx)
          rw [if_pos hx, if_pos ⟨a1, by rw [a2]; exact h4 hx⟩]
          omega
        · rw [if_neg hx]; omega
      · have hx : ¬ o.successes = true := fun hx => hr (h3 (.inl hx)).1
        obtain ⟨a1, -, a2⟩ := h5 hr
        rw [if_neg hx, a2]
        by_cases hz : 2 ≤ f.tries
        · rw [if_pos ⟨hr, hz⟩, if_pos ⟨a1, hz⟩]; omega
        · rw [if_neg (fun e => hz e.2)]; omega
    · simp [hq]

theorem inv_step (fil : Q → Rsp → Rsp) (lab : Labeler B E S L) (cancelled : E) (w : World Q B E) (h : Inv fil w) (a : Act Q B E) :
    Inv fil (w.step fil lab cancelled a) := by
  cases a with
  | call now q retry => exact inv_call fil w h now q retry
  | on i now ev =>
    unfold World.step
    dsimp only
    cases hi : w.flights[i]? with
    | none => exact h
    | some x =>
      obtain ⟨q, f⟩ := x
      dsimp only
      refine inv_on fil w h i now q f _ _ hi (step_ok _ _ _ _ f (h.wf i _ hi) ?_ ev)
      intro a ha
      obtain ⟨t, ht, -⟩ := h.role i _ hi a (h.holds i _ hi a ha)
      rw [← h.sent]; exact lt_of_getElem?_some ht

theorem inv_run (fil : Q → Rsp → Rsp) (lab : Labeler B E S L) (cancelled : E) (acts : List (Act Q B E)) :
    Inv fil (World.run fil lab cancelled acts) := by
  unfold World.run
  have : ∀ (w : World Q B E), Inv fil w → Inv fil (acts.foldl (World.step fil lab cancelled) w) := by
    induction acts with
    | nil => exact fun w h => h
    | cons a acts ih => exact fun w h => ih _ (inv_step fil lab cancelled w h a)
  exact this _ (inv_init fil)

end Verif.RetryMetrics
