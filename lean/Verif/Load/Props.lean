import Verif.Load.Model
import Mathlib.Tactic.Ring
import Mathlib.Tactic.FieldSimp

/-!
# C17 — the load of an endpoint

The round-trip estimate follows an increase at once, otherwise moves toward the sample without crossing
it, and between samples decays exponentially; no event lowers it at the moment it happens, and a failure
leaves it at least at its penalty, however low it was, and at least at what is left of the penalty after any
later history; it never exceeds the greatest sample; the load is the estimate times the number of requests in
flight plus one.
-/

namespace Verif.Load

/-! ### Specification -/

/-- The decay over `d` nanoseconds. -/
noncomputable def decayed (decay : ℕ) (d : ℕ) : ℝ := Real.exp (-(secs d) / secs (max decay minDecay))

/-- The requests in flight, with the time each was sent, and the time. -/
def flights (now0 : ℕ) (ops : List Op) : List (ℕ × ℕ) × ℕ :=
  ops.foldl (fun s o => match o with
    | .tick d => (s.1, s.2 + d)
    | .call id => (s.1 ++ [(id, s.2)], s.2)
    | .done id => (s.1.eraseP (fun h => h.1 == id), s.2)
    | .failed id _ => (s.1.eraseP (fun h => h.1 == id), s.2)) ([], now0)

/-- The time that passes in a history. -/
def elapsed (ops : List Op) : ℕ := (ops.map (fun o => match o with | .tick d => d | _ => 0)).sum

/-- Every request that ends in the history took at most `b`, and every penalty is at most `b`. -/
def Prompt (now0 b : ℕ) (ops : List Op) : Prop :=
  ∀ pre o post, ops = pre ++ o :: post →
    match o with
    | .done id => ∀ t, (flights now0 pre).1.find? (fun h => h.1 == id) = some (id, t) → (flights now0 pre).2 - t ≤ b
    | .failed _ p => p ≤ b
    | _ => True

/-! ### The estimate -/

theorem secs_nonneg (n : ℕ) : 0 ≤ secs n := by unfold secs; positivity
theorem secs_mono {a b : ℕ} (h : a ≤ b) : secs a ≤ secs b := by
  unfold secs; gcongr
theorem secs_add (a b : ℕ) : secs (a + b) = secs a + secs b := by
  unfold secs; push_cast; ring

/-- A sane estimate: finite, not negative, with a positive decay. -/
structure Ok (e : Ewma) (v : ℝ) : Prop where
  value : e.value = some v
  nonneg : 0 ≤ v
  decay : 0 < e.decay

theorem factor_pos (e : Ewma) (t : ℕ) : 0 < e.factor t := Real.exp_pos _

theorem factor_le_one (e : Ewma) (t : ℕ) (h : 0 < e.decay) : e.factor t ≤ 1 := by
  unfold Ewma.factor
  rw [Real.exp_le_one_iff]
  have := secs_nonneg (t - e.timestamp)
  rw [neg_div]
  have : 0 ≤ secs (t - e.timestamp) / e.decay := div_nonneg this h.le
  linarith

theorem getAt_eq {e : Ewma} {v : ℝ} (h : Ok e v) (t : ℕ) (ht : e.timestamp ≤ t) : e.getAt t = some (v * e.factor t) := by
  unfold Ewma.getAt
  rw [h.value]
  simp only
  split
  · have : t = e.timestamp := by omega
    subst this
    simp [Ewma.factor, secs]
  · rfl

theorem factor_add (e : Ewma) (t d : ℕ) (ht : e.timestamp ≤ t) :
    e.factor (t + d) = e.factor t * Real.exp (-(secs d) / e.decay) := by
  unfold Ewma.factor
  rw [← Real.exp_add, show t + d - e.timestamp = (t - e.timestamp) + d by omega, secs_add]
  congr 1; ring

/-- All there is to know about recording a sample. -/
theorem addPeak_spec {e : Ewma} {old : ℝ} (h : Ok e old) (v : ℝ) (hv : 0 ≤ v) (t : ℕ) (ht : e.timestamp ≤ t) :
    ∃ x, Ok (e.addPeak v t) x ∧ (e.addPeak v t).timestamp = t ∧ (e.addPeak v t).decay = e.decay ∧
      old * e.factor t ≤ x ∧ v ≤ x ∧ x ≤ max old v ∧ (old * e.factor t < v → x = v) ∧
      (v ≤ old → x ≤ old) := by
  have hf := factor_pos e t
  have hf1 := factor_le_one e t h.decay
  unfold Ewma.addPeak
  rw [getAt_eq h t ht]
  simp only
  by_cases hlt : old * e.factor t < v
  · rw [if_pos hlt]
    exact ⟨v, ⟨rfl, hv, h.decay⟩, rfl, rfl, hlt.le, le_refl _, le_max_right _ _, fun _ => rfl, id⟩
  · rw [if_neg hlt]
    have hge : v ≤ old * e.factor t := not_lt.1 hlt
    have hvo : v ≤ old := le_trans hge (by nlinarith [h.nonneg])
    unfold Ewma.add
    by_cases hts : t ≤ e.timestamp
    · have : t = e.timestamp := by omega
      subst this
      rw [if_pos (le_refl _)]
      refine ⟨old, h, rfl, rfl, ?_, hvo, le_max_left _ _, fun hh => absurd hh hlt, fun _ => le_refl _⟩
      nlinarith [h.nonneg]
    · rw [if_neg hts, h.value]
      simp only
      refine ⟨old * (1 - (1 - e.factor t)) + v * (1 - e.factor t), ⟨rfl, ?_, h.decay⟩, True.intro, True.intro, ?_, ?_, ?_,
        fun hh => absurd hh hlt, ?_⟩
      · nlinarith [h.nonneg]
      · nlinarith
      · nlinarith
      · apply le_max_of_le_left; nlinarith
      · intro _; nlinarith

/-- A sample above the decayed estimate replaces it at once. -/
theorem C17_estimate_follows_increases (e : Ewma) (old v g : ℝ) (t : ℕ) (h : Ok e old) (ht : e.timestamp ≤ t)
    (hg : e.getAt t = some g) (hv : 0 ≤ v) (hlt : g < v) : (e.addPeak v t).getAt t = some v := by
  obtain ⟨x, h1, h2, h3, _, _, _, h7, _⟩ := addPeak_spec h v hv t ht
  rw [getAt_eq h t ht] at hg
  cases hg
  have := h7 hlt
  subst this
  rw [getAt_eq h1 t (by omega)]
  simp [Ewma.factor, h2, secs]

/-- A sample below it pulls the estimate toward itself without crossing: the new estimate lies between the
sample and the old value, and not below the decayed old value. -/
theorem C17_estimate_moves_toward_the_sample (e : Ewma) (old v g : ℝ) (t : ℕ) (h : Ok e old) (ht : e.timestamp ≤ t)
    (hg : e.getAt t = some g) (hv : 0 ≤ v) (hle : v ≤ g) :
    ∃ x, (e.addPeak v t).getAt t = some x ∧ v ≤ x ∧ g ≤ x ∧ x ≤ old := by
  obtain ⟨x, h1, h2, h3, h4, h5, h6, h7, h8⟩ := addPeak_spec h v hv t ht
  rw [getAt_eq h t ht] at hg
  cases hg
  refine ⟨x, ?_, h5, h4, h8 ?_⟩
  · rw [getAt_eq h1 t (by omega)]
    simp [Ewma.factor, h2, secs]
  · have := factor_le_one e t h.decay
    nlinarith [h.nonneg]

/-- Before the first sample the estimate is infinite and the first sample becomes the estimate. -/
theorem C17_first_sample (decay t0 t : ℕ) (v : ℝ) :
    (Ewma.new decay t0).getAt t = none ∧ ((Ewma.new decay t0).addPeak v t).getAt t = some v := by
  constructor
  · rfl
  · simp [Ewma.addPeak, Ewma.getAt, Ewma.new]

/-! ### The endpoint -/

theorem decay_pos (d : ℕ) : 0 < secs (max d minDecay) := by
  unfold secs minDecay
  have : (1000000 : ℕ) ≤ max d 1000000 := le_max_right _ _
  have h2 : (1000000 : ℝ) ≤ ((max d 1000000 : ℕ) : ℝ) := by exact_mod_cast this
  positivity

/-- The invariant of an endpoint. -/
structure Inv (decay : ℕ) (w : World) (v : ℝ) : Prop where
  ok : Ok w.rtt v
  dec : w.rtt.decay = secs (max decay minDecay)
  time : w.rtt.timestamp ≤ w.now

theorem estimate_eq {decay : ℕ} {w : World} {v : ℝ} (h : Inv decay w v) : w.estimate = v * w.rtt.factor w.now := by
  unfold World.estimate
  rw [getAt_eq h.ok _ h.time]; rfl

theorem estimate_nonneg {decay : ℕ} {w : World} {v : ℝ} (h : Inv decay w v) : 0 ≤ w.estimate := by
  rw [estimate_eq h]; exact mul_nonneg h.ok.nonneg (factor_pos _ _).le

theorem init_inv (decay rtt now : ℕ) : Inv decay (World.init decay rtt now) (secs rtt) :=
  ⟨⟨rfl, secs_nonneg _, decay_pos _⟩, rfl, le_refl _⟩

theorem estimate_le {decay : ℕ} {w : World} {v : ℝ} (h : Inv decay w v) : w.estimate ≤ v := by
  rw [estimate_eq h]
  have := factor_le_one w.rtt w.now h.ok.decay
  nlinarith [h.ok.nonneg]

/-- Recording a sample in an endpoint. -/
theorem record_inv {decay : ℕ} {w : World} {v : ℝ} (h : Inv decay w v) (x : ℝ) (hx : 0 ≤ x) (hs : List Handle) :
    ∃ v', Inv decay { w with rtt := w.rtt.addPeak x w.now, handles := hs } v' ∧
      World.estimate { w with rtt := w.rtt.addPeak x w.now, handles := hs } = v' ∧ w.estimate ≤ v' ∧ x ≤ v' ∧ v' ≤ max v x := by
  obtain ⟨y, h1, h2, h3, h4, h5, h6, _, _⟩ := addPeak_spec h.ok x hx w.now h.time
  have hi : Inv decay { w with rtt := w.rtt.addPeak x w.now, handles := hs } y := ⟨h1, by rw [← h.dec]; exact h3, by simp [h2]⟩
  refine ⟨y, hi, ?_, ?_, h5, h6⟩
  · rw [estimate_eq hi]
    simp [Ewma.factor, h2, secs]
  · rw [estimate_eq h]; exact h4

theorem tick_inv {decay : ℕ} {w : World} {v : ℝ} (h : Inv decay w v) (d : ℕ) :
    Inv decay (w.step (.tick d)) v ∧ (w.step (.tick d)).estimate = w.estimate * decayed decay d := by
  have hi : Inv decay (w.step (.tick d)) v := ⟨h.ok, h.dec, by have := h.time; show w.rtt.timestamp ≤ w.now + d; omega⟩
  refine ⟨hi, ?_⟩
  rw [estimate_eq hi, estimate_eq h]
  show v * w.rtt.factor (w.now + d) = _
  rw [factor_add _ _ _ h.time, h.dec]
  unfold decayed; ring

theorem step_inv {decay : ℕ} {w : World} {v : ℝ} (h : Inv decay w v) (o : Op) :
    ∃ v', Inv decay (w.step o) v' ∧
      (match o with
       | .tick d => (w.step o).estimate = w.estimate * decayed decay d ∧ v' = v
       | _ => w.estimate ≤ (w.step o).estimate) ∧ (w.step o).now = w.now + elapsed [o] := by
  cases o with
  | tick d => exact ⟨v, (tick_inv h d).1, ⟨(tick_inv h d).2, rfl⟩, by simp [elapsed, World.step]⟩
  | call id => exact ⟨v, ⟨h.ok, h.dec, h.time⟩, le_refl _, by simp [elapsed, World.step]⟩
  | done id =>
    simp only [World.step]
    cases hf : w.handles.find? (fun h => h.id == id) with
    | none => exact ⟨v, h, le_refl _, by simp [elapsed]⟩
    | some hd =>
      obtain ⟨v', a, b, c, _⟩ := record_inv h (secs (w.now - hd.sentAt)) (secs_nonneg _) (w.handles.eraseP (fun h => h.id == id))
      exact ⟨v', a, by simp only [World.measure]; rw [b]; exact c, by simp [elapsed, World.measure]⟩
  | failed id p =>
    simp only [World.step]
    cases hf : w.handles.find? (fun h => h.id == id) with
    | none => exact ⟨v, h, le_refl _, by simp [elapsed]⟩
    | some hd =>
      obtain ⟨v', a, b, c, _⟩ := record_inv h (max (secs p) w.estimate) (le_max_of_le_left (secs_nonneg _)) (w.handles.eraseP (fun h => h.id == id))
      exact ⟨v', a, by simp only [World.penalise]; rw [b]; exact c, by simp [elapsed, World.penalise]⟩

theorem decayed_pos (decay d : ℕ) : 0 < decayed decay d := Real.exp_pos _

theorem decayed_add (decay a b : ℕ) : decayed decay (a + b) = decayed decay a * decayed decay b := by
  unfold decayed
  rw [← Real.exp_add, secs_add]; congr 1; ring

theorem decayed_zero (decay : ℕ) : decayed decay 0 = 1 := by simp [decayed, secs]

theorem run_inv {decay : ℕ} (ops : List Op) : ∀ {w : World} {v : ℝ}, Inv decay w v →
    (∃ v', Inv decay (w.run ops) v') ∧ w.estimate * decayed decay (elapsed ops) ≤ (w.run ops).estimate := by
  induction ops with
  | nil => intro w v h; exact ⟨⟨v, h⟩, by simp [World.run, elapsed, decayed_zero]⟩
  | cons o ops ih =>
    intro w v h
    obtain ⟨v', h1, h2, _⟩ := step_inv h o
    obtain ⟨h3, h4⟩ := ih h1
    refine ⟨h3, le_trans ?_ h4⟩
    have he : elapsed (o :: ops) = elapsed [o] + elapsed ops := by simp [elapsed]
    rw [he, decayed_add]
    have hp := decayed_pos decay (elapsed ops)
    have hn := estimate_nonneg h
    cases o with
    | tick d =>
      have e1 : elapsed [Op.tick d] = d := by simp [elapsed]
      rw [e1, h2.1]; exact le_of_eq (by ring)
    | call id => have e1 : elapsed [Op.call id] = 0 := by simp [elapsed]
                 rw [e1, decayed_zero, one_mul]; exact mul_le_mul_of_nonneg_right h2 hp.le
    | done id => have e1 : elapsed [Op.done id] = 0 := by simp [elapsed]
                 rw [e1, decayed_zero, one_mul]; exact mul_le_mul_of_nonneg_right h2 hp.le
    | failed id p => have e1 : elapsed [Op.failed id p] = 0 := by simp [elapsed]
                     rw [e1, decayed_zero, one_mul]; exact mul_le_mul_of_nonneg_right h2 hp.le

theorem run_append (w : World) (a b : List Op) : w.run (a ++ b) = (w.run a).run b := by simp [World.run]

/-- What is in flight according to the world is what is in flight according to the history. -/
theorem flights_eq (decay rtt now : ℕ) (ops : List Op) :
    (((World.init decay rtt now).run ops).handles.map (fun h => (h.id, h.sentAt)), ((World.init decay rtt now).run ops).now) =
      flights now ops := by
  have gen : ∀ (ops : List Op) (w : World) (s : List (ℕ × ℕ) × ℕ),
      (w.handles.map (fun h => (h.id, h.sentAt)), w.now) = s →
      ((w.run ops).handles.map (fun h => (h.id, h.sentAt)), (w.run ops).now) =
        ops.foldl (fun s o => match o with
          | .tick d => (s.1, s.2 + d)
          | .call id => (s.1 ++ [(id, s.2)], s.2)
          | .done id => (s.1.eraseP (fun h => h.1 == id), s.2)
          | .failed id _ => (s.1.eraseP (fun h => h.1 == id), s.2)) s := by
    intro ops
    induction ops with
    | nil => intro w s h; exact h
    | cons o ops ih =>
      intro w s h
      simp only [List.foldl_cons]
      have hrun : w.run (o :: ops) = (w.step o).run ops := rfl
      rw [hrun]
      apply ih
      subst h
      have herase : ∀ id, (w.handles.eraseP (fun h => h.id == id)).map (fun h => (h.id, h.sentAt)) =
          (w.handles.map (fun h => (h.id, h.sentAt))).eraseP (fun h => h.1 == id) := by
        intro id
        rw [List.eraseP_map]; rfl
      have hnone : ∀ id, w.handles.find? (fun h => h.id == id) = none →
          (w.handles.map (fun h => (h.id, h.sentAt))).eraseP (fun h => h.1 == id) = w.handles.map (fun h => (h.id, h.sentAt)) := by
        intro id hf
        rw [List.find?_eq_none] at hf
        apply List.eraseP_of_forall_not
        intro x hx
        rw [List.mem_map] at hx
        obtain ⟨y, hy, rfl⟩ := hx
        exact hf y hy
      cases o with
      | tick d => rfl
      | call id => simp [World.step]
      | done id =>
        simp only [World.step]
        cases hf : w.handles.find? (fun h => h.id == id) with
        | none => simp only [hnone id hf]
        | some hd => simp only [herase, World.measure]
      | failed id p =>
        simp only [World.step]
        cases hf : w.handles.find? (fun h => h.id == id) with
        | none => simp only [hnone id hf]
        | some hd => simp only [herase, World.penalise]
  exact gen ops _ _ rfl

/-- The load is the estimate times one more than the number of requests in flight; so with a positive
estimate each request in flight makes the endpoint less attractive. -/
theorem C17_load_counts_requests_in_flight (decay rtt now : ℕ) (ops : List Op) :
    let w := (World.init decay rtt now).run ops
    w.load = w.estimate * (((flights now ops).1.length : ℝ) + 1) := by
  intro w
  have := congrArg (fun p => p.1.length) (flights_eq decay rtt now ops)
  simp only [List.length_map] at this
  unfold World.load
  rw [this]

/-- Sending a request raises the load by exactly the estimate. -/
theorem C17_load_grows_with_requests_in_flight (w : World) (id : ℕ) : (w.step (.call id)).load = w.load + w.estimate := by
  show w.estimate * (((w.handles ++ [_]).length : ℝ) + 1) = w.estimate * ((w.handles.length : ℝ) + 1) + w.estimate
  rw [List.length_append]; push_cast [List.length_singleton]; ring

/-- The estimate is never negative; as time passes it decays exponentially; and no other event — a
request sent, answered, cancelled or penalised — lowers it at the moment it happens. -/
theorem C17_only_time_lowers_the_estimate (decay rtt now : ℕ) (ops : List Op) (o : Op) :
    let w := (World.init decay rtt now).run ops
    0 ≤ w.estimate ∧
    match o with
    | .tick d => (w.step o).estimate = w.estimate * decayed decay d
    | _ => w.estimate ≤ (w.step o).estimate := by
  intro w
  obtain ⟨⟨v, h⟩, _⟩ := run_inv (decay := decay) ops (init_inv decay rtt now)
  refine ⟨estimate_nonneg h, ?_⟩
  obtain ⟨v', _, h2, _⟩ := step_inv h o
  cases o with
  | tick d => exact h2.1
  | call id => exact h2
  | done id => exact h2
  | failed id p => exact h2

/-- A failure leaves the estimate at its penalty at least, and what follows — however many fast
successes — cannot bring it below what is left of the penalty after exponential decay. -/
theorem C17_penalties_last (decay rtt now : ℕ) (pre post : List Op) (id p : ℕ)
    (hin : ∃ t, (id, t) ∈ (flights now pre).1) :
    secs p * decayed decay (elapsed post) ≤
      ((World.init decay rtt now).run (pre ++ .failed id p :: post)).estimate := by
  obtain ⟨⟨v, h⟩, _⟩ := run_inv (decay := decay) pre (init_inv decay rtt now)
  have hfl := flights_eq decay rtt now pre
  rw [run_append]
  show _ ≤ ((((World.init decay rtt now).run pre).step (.failed id p)).run post).estimate
  revert h hfl
  generalize (World.init decay rtt now).run pre = w
  intro h hfl
  have hsome : ∃ hd, w.handles.find? (fun h => h.id == id) = some hd := by
    cases hf : w.handles.find? (fun h => h.id == id) with
    | some hd => exact ⟨hd, rfl⟩
    | none =>
      exfalso
      rw [List.find?_eq_none] at hf
      obtain ⟨t, ht⟩ := hin
      rw [← hfl] at ht
      simp only [List.mem_map] at ht
      obtain ⟨x, hx, he⟩ := ht
      exact hf x hx (by simp [(Prod.mk.inj he).1])
  obtain ⟨hd, hf⟩ := hsome
  obtain ⟨v', a, b, c, d, _⟩ := record_inv h (max (secs p) w.estimate) (le_max_of_le_left (secs_nonneg _)) (w.handles.eraseP (fun h => h.id == id))
  have hstep : w.step (.failed id p) = { w with rtt := w.rtt.addPeak (max (secs p) w.estimate) w.now, handles := w.handles.eraseP (fun h => h.id == id) } := by
    simp only [World.step, hf, World.penalise]
  rw [hstep]
  obtain ⟨_, hr⟩ := run_inv (decay := decay) post a
  refine le_trans ?_ hr
  rw [b]
  exact mul_le_mul_of_nonneg_right (le_trans (le_max_left _ _) d) (decayed_pos _ _).le

/-- Measurements cannot inflate the estimate: it never exceeds the greatest of the default, the durations
of the requests that ended and the penalties. -/
theorem C17_estimate_is_bounded_by_the_samples (decay rtt now b : ℕ) (ops : List Op) (hr : rtt ≤ b)
    (hb : Prompt now b ops) : ((World.init decay rtt now).run ops).estimate ≤ secs b := by
  have key : ∀ ops, Prompt now b ops → ∃ v, Inv decay ((World.init decay rtt now).run ops) v ∧ v ≤ secs b := by
    intro ops
    induction ops using List.reverseRecOn with
    | nil => intro _; exact ⟨_, init_inv decay rtt now, secs_mono hr⟩
    | append_singleton pre o ih =>
      intro hp
      obtain ⟨v, h, hv⟩ := ih (fun a x c he => by
        have := hp a x (c ++ [o]) (by rw [he]; simp)
        exact this)
      have ho := hp pre o [] (by simp)
      have hfl := flights_eq decay rtt now pre
      rw [run_append]
      show ∃ v, Inv decay (((World.init decay rtt now).run pre).step o) v ∧ _
      revert h hfl
      generalize (World.init decay rtt now).run pre = w
      intro h hfl
      cases o with
      | tick d => exact ⟨v, (tick_inv h d).1, hv⟩
      | call id => exact ⟨v, ⟨h.ok, h.dec, h.time⟩, hv⟩
      | done id =>
        simp only [World.step]
        cases hf : w.handles.find? (fun h => h.id == id) with
        | none => exact ⟨v, h, hv⟩
        | some hd =>
          obtain ⟨v', a, _, _, _, c⟩ := record_inv h (secs (w.now - hd.sentAt)) (secs_nonneg _) (w.handles.eraseP (fun h => h.id == id))
          refine ⟨v', a, le_trans c (max_le hv (secs_mono ?_))⟩
          simp only at ho
          rw [← hfl] at ho
          apply ho hd.sentAt
          simp only [List.find?_map]
          have : (fun h : Handle => h.id == id) = ((fun h : ℕ × ℕ => h.1 == id) ∘ fun h : Handle => (h.id, h.sentAt)) := rfl
          rw [← this, hf]
          have hid := List.find?_some hf
          simp only [beq_iff_eq] at hid
          simp [hid]
      | failed id p =>
        simp only [World.step]
        cases hf : w.handles.find? (fun h => h.id == id) with
        | none => exact ⟨v, h, hv⟩
        | some hd =>
          obtain ⟨v', a, _, _, _, c⟩ := record_inv h (max (secs p) w.estimate) (le_max_of_le_left (secs_nonneg _)) (w.handles.eraseP (fun h => h.id == id))
          refine ⟨v', a, le_trans c (max_le hv (max_le (secs_mono ho) (le_trans (estimate_le h) hv)))⟩
  obtain ⟨v, h, hv⟩ := key ops hb
  exact le_trans (estimate_le h) hv

/-- The hypotheses are met: a request in flight is penalised, and a prompt history exists. -/
example : (∃ t, (7, t) ∈ (flights 0 [.call 3, .tick 5, .call 7, .done 3]).1) ∧
    Prompt 0 10 [.call 3, .tick 5, .done 3] := by
  refine ⟨⟨5, by decide⟩, ?_⟩
  intro pre o post h
  rcases pre with _ | ⟨a, _ | ⟨b, _ | ⟨c, pre⟩⟩⟩
  · cases h; trivial
  · cases h; trivial
  · cases h
    intro t ht
    simp [flights] at ht
    subst ht
    simp [flights]
  · simp at h

end Verif.Load
