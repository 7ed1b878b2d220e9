import Verif.ProfileRetry.Tps
import Verif.ProfileRetry.Props
import Verif.Profiles.Props

/-!
# What a budget allows in how much time
-/

namespace Verif.ProfileRetry

open Verif.Classify

/-! ## Windows -/

/-- A call, and the window it was counted in, of all. -/
structure Entry where
  at_ : Nat
  call : Call
  pos : Nat

/-- What a call adds. -/
def amt (gain cost : Nat) : Call → Int
  | .deposit => gain
  | .withdraw true => -(cost : Int)
  | .withdraw false => 0

/-- What was counted in the windows that `p` holds of. -/
def total (gain cost : Nat) (es : List Entry) (p : Nat → Bool) : Int :=
  ((es.filter fun e => p e.pos).map fun e => amt gain cost e.call).sum

theorem total_snoc (gain cost : Nat) (es : List Entry) (e : Entry) (p : Nat → Bool) :
    total gain cost (es ++ [e]) p = total gain cost es p + if p e.pos then amt gain cost e.call else 0 := by
  unfold total
  rw [List.filter_append, List.map_append, List.sum_append]
  congr 1
  cases h : p e.pos <;> simp [h]

theorem total_cons (gain cost : Nat) (es : List Entry) (e : Entry) (p : Nat → Bool) :
    total gain cost (e :: es) p = (if p e.pos then amt gain cost e.call else 0) + total gain cost es p := by
  unfold total
  rw [List.filter_cons]
  cases h : p e.pos <;> simp

theorem total_none {gain cost : Nat} {es : List Entry} {p : Nat → Bool} (h : ∀ e ∈ es, p e.pos = false) : total gain cost es p = 0 := by
  unfold total
  rw [List.filter_eq_nil_iff.2 (fun e he => by simp [h e he])]
  rfl

/-- Window `r`. -/
def is (r : Nat) : Nat → Bool := fun n => decide (n = r)

/-- The ten windows before window `p` are in the slots. -/
def Ring (s : List Int) (p : Nat) (f : Nat → Int) : Prop :=
  s.length = 10 ∧ ∀ r, r < p → p ≤ r + 10 → s[r % 10]? = some (f r)

theorem Ring.set {s : List Int} {p : Nat} {f : Nat → Int} (h : Ring s p f) {v : Int} (hv : v = f p) :
    Ring (s.set (p % 10) v) (p + 1) f := by
  obtain ⟨hl, h⟩ := h
  refine ⟨by rw [List.length_set, hl], fun r h1 h2 => ?_⟩
  by_cases hr : r = p
  · subst hr
    rw [List.getElem?_set_self (by omega), hv]
  · rw [List.getElem?_set_ne (by omega)]
    exact h r (by omega) (by omega)

/-- How the loop goes on: by as many windows as the time, rounded up. -/
theorem skip_ring (w : Nat) (hw : 0 < w) (f : Nat → Int) : ∀ (fuel diff p : Nat) (s : List Int), diff ≤ fuel → 0 < diff → Ring s p f →
    (∀ r, p ≤ r → f r = 0) →
    ∃ c, (skip w fuel diff (p % 10) s).1 = (p + c) % 10 ∧ Ring (skip w fuel diff (p % 10) s).2 (p + c) f ∧
      diff ≤ (c + 1) * w ∧ c * w < diff := by
  intro fuel
  induction fuel with
  | zero => intro diff p s h1 h2; omega
  | succ n ih =>
    intro diff p s h1 h2 hr hf
    unfold skip
    by_cases hd : w < diff
    · rw [if_pos hd]
      have e : (p % 10 + 1) % 10 = (p + 1) % 10 := by omega
      rw [e]
      obtain ⟨c, i1, i2, i3, i4⟩ := ih (diff - w) (p + 1) _ (by omega) (by omega) (hr.set (hf p (Nat.le_refl _)).symm)
        (fun r h => hf r (by omega))
      refine ⟨c + 1, ?_, ?_, ?_, ?_⟩
      · rw [i1]; congr 1; omega
      · have : p + (c + 1) = p + 1 + c := by omega
        rw [this]; exact i2
      · have : (c + 1 + 1) * w = (c + 1) * w + w := by rw [Nat.succ_mul]
        omega
      · have : (c + 1) * w = c * w + w := by rw [Nat.succ_mul]
        omega
    · rw [if_neg hd]
      exact ⟨0, rfl, hr, by omega, by omega⟩

theorem ring_sum {s : List Int} {p : Nat} {f : Nat → Int} (hp : 10 ≤ p) (h : Ring s p f) :
    s.sum = ((List.range 10).map fun k => f (p - 10 + k)).sum := by
  obtain ⟨hl, h⟩ := h
  have hk : ∀ k, k < 10 → s[(p - 10 + k) % 10]? = some (f (p - 10 + k)) := fun k hk => h _ (by omega) (by omega)
  have h0 := hk 0 (by omega)
  have h1 := hk 1 (by omega)
  have h2 := hk 2 (by omega)
  have h3 := hk 3 (by omega)
  have h4 := hk 4 (by omega)
  have h5 := hk 5 (by omega)
  have h6 := hk 6 (by omega)
  have h7 := hk 7 (by omega)
  have h8 := hk 8 (by omega)
  have h9 := hk 9 (by omega)
  generalize p - 10 = q at *
  match s, hl with
  | [a0, a1, a2, a3, a4, a5, a6, a7, a8, a9], _ =>
    have e : (List.range 10).map (fun k => f (q + k)) =
        [f (q + 0), f (q + 1), f (q + 2), f (q + 3), f (q + 4), f (q + 5), f (q + 6), f (q + 7), f (q + 8), f (q + 9)] := rfl
    rw [e]
    have hq : q % 10 = 0 ∨ q % 10 = 1 ∨ q % 10 = 2 ∨ q % 10 = 3 ∨ q % 10 = 4 ∨ q % 10 = 5 ∨ q % 10 = 6 ∨ q % 10 = 7 ∨
      q % 10 = 8 ∨ q % 10 = 9 := by omega
    rcases hq with hq | hq | hq | hq | hq | hq | hq | hq | hq | hq <;>
    · simp only [Nat.add_mod q, hq] at h0 h1 h2 h3 h4 h5 h6 h7 h8 h9
      simp at h0 h1 h2 h3 h4 h5 h6 h7 h8 h9
      simp only [List.sum_cons, List.sum_nil, ← h0, ← h1, ← h2, ← h3, ← h4, ← h5, ← h6, ← h7, ← h8, ← h9, Nat.add_zero]
      all_goals omega

/-- What is counted in window `p` and the ten before it. -/
theorem total_live (gain cost : Nat) (es : List Entry) (p : Nat) (hp : 10 ≤ p) (h : ∀ e ∈ es, e.pos ≤ p) :
    total gain cost es (fun n => decide (p ≤ n + 10)) =
      total gain cost es (is p) + ((List.range 10).map fun k => total gain cost es (is (p - 10 + k))).sum := by
  obtain ⟨q, rfl⟩ : ∃ q, p = q + 10 := ⟨p - 10, by omega⟩
  have e : ∀ f : Nat → Int, ((List.range 10).map fun k => f (q + 10 - 10 + k)).sum =
      f (q + 0) + (f (q + 1) + (f (q + 2) + (f (q + 3) + (f (q + 4) + (f (q + 5) + (f (q + 6) + (f (q + 7) + (f (q + 8) + (f (q + 9) + 0))))))))) :=
    fun _ => rfl
  rw [e fun r => total gain cost es (is r)]
  clear hp e
  induction es with
  | nil => rfl
  | cons x es ih =>
    have ih := ih fun e he => h e (List.mem_cons_of_mem _ he)
    have hx := h x List.mem_cons_self
    simp only [total_cons] at ih ⊢
    generalize total gain cost es (fun n => decide (q + 10 ≤ n + 10)) = t at ih ⊢
    simp only [is] at ih ⊢
    rcases Nat.lt_or_ge x.pos q with hlt | hge
    · have hn : ∀ k, ¬ x.pos = q + k := fun k => by omega
      have hl : ¬ q + 10 ≤ x.pos + 10 := by omega
      simp only [hn, hl, decide_false, Bool.false_eq_true, if_false]
      omega
    · obtain ⟨d, hd⟩ : ∃ d, x.pos = q + d := ⟨x.pos - q, by omega⟩
      have hl : q + 10 ≤ q + d + 10 := by omega
      have hd' : d = 0 ∨ d = 1 ∨ d = 2 ∨ d = 3 ∨ d = 4 ∨ d = 5 ∨ d = 6 ∨ d = 7 ∨ d = 8 ∨ d = 9 ∨ d = 10 := by omega
      simp only [Nat.add_zero] at ih
      rw [hd]
      simp only [hl, decide_true, if_true, Nat.add_left_cancel_iff]
      rcases hd' with rfl | rfl | rfl | rfl | rfl | rfl | rfl | rfl | rfl | rfl | rfl <;> simp <;> omega

/-! ## The invariant -/

/-- What the budget holds: the sums of the window at hand and the ten before it, and where the calls are. A window that a call was counted
in began, at `g`, less than a window before it; windows are at least half as long as they should be, and no longer. -/
structure Inv (b : Tps) (p : Nat) (es : List Entry) : Prop where
  ring : Ring b.slots p (fun r => total b.gain b.cost es (is r))
  idx : b.index = p % 10
  ten : 10 ≤ p
  writer : b.writer = total b.gain b.cost es (is p)
  past : ∀ e ∈ es, ∃ g k, p = e.pos + k ∧ g ≤ e.at_ ∧ e.at_ < g + b.window ∧ g ≤ b.time ∧
    k * b.window ≤ 2 * (b.time - g) ∧ b.time - g ≤ k * b.window

theorem Inv.pos {b : Tps} {p : Nat} {es : List Entry} (h : Inv b p es) {e : Entry} (he : e ∈ es) : e.pos ≤ p := by
  obtain ⟨g, k, h, -⟩ := h.past e he
  omega

theorem Inv.later {b : Tps} {p : Nat} {es : List Entry} (h : Inv b p es) {r : Nat} (hr : p < r) : total b.gain b.cost es (is r) = 0 :=
  total_none fun e he => by have := h.pos he; unfold is; rw [decide_eq_false_iff_not]; omega

theorem Inv.sum {b : Tps} {p : Nat} {es : List Entry} (h : Inv b p es) :
    b.sum = b.reserve + total b.gain b.cost es (fun n => decide (p ≤ n + 10)) := by
  rw [total_live _ _ _ _ h.ten fun _ => h.pos, Tps.sum, ring_sum h.ten h.ring, h.writer]
  omega

/-- What is not changed by calls. -/
structure Same (a b : Tps) : Prop where
  reserve : b.reserve = a.reserve
  window : b.window = a.window
  gain : b.gain = a.gain
  cost : b.cost = a.cost

theorem Inv.expire {b : Tps} {p : Nat} {es : List Entry} (h : Inv b p es) {now : Nat} (hw : 0 < b.window) (hn : b.time ≤ now) :
    ∃ p', Inv (b.expire now) p' es ∧ Same b (b.expire now) ∧ (b.expire now).time ≤ now ∧ now < (b.expire now).time + b.window := by
  unfold Tps.expire
  dsimp only
  by_cases hd : now - b.time < b.window
  · rw [if_pos hd]
    exact ⟨p, h, ⟨rfl, rfl, rfl, rfl⟩, hn, by omega⟩
  · rw [if_neg hd]
    have hi : (b.index + 1) % 10 = (p + 1) % 10 := by rw [h.idx]; omega
    have hr : Ring (b.slots.set b.index b.writer) (p + 1) (fun r => total b.gain b.cost es (is r)) := by
      rw [h.idx]; exact h.ring.set h.writer
    rw [hi]
    obtain ⟨c, c1, c2, c3, c4⟩ := skip_ring b.window hw (fun r => total b.gain b.cost es (is r)) (now - b.time) (now - b.time) (p + 1) _
      (Nat.le_refl _) (by omega) hr (fun r hr => h.later (by omega))
    refine ⟨p + 1 + c, ⟨c2, c1, by have := h.ten; omega, (h.later (by omega)).symm, fun e he => ?_⟩, ⟨rfl, rfl, rfl, rfl⟩, Nat.le_refl _,
      by dsimp only; omega⟩
    obtain ⟨g, k, h1, h2, h3, h4, h5, h6⟩ := h.past e he
    refine ⟨g, k + (c + 1), by omega, h2, h3, by dsimp only; omega, ?_, ?_⟩
    · dsimp only
      rw [Nat.add_mul]
      have : (c + 1) * b.window = c * b.window + b.window := Nat.succ_mul _ _
      omega
    · dsimp only
      rw [Nat.add_mul]
      omega

theorem Inv.add {b : Tps} {p : Nat} {es : List Entry} (h : Inv b p es) {now : Nat} (h1 : b.time ≤ now) (h2 : now < b.time + b.window)
    (c : Call) : Inv { b with writer := b.writer + amt b.gain b.cost c } p (es ++ [⟨now, c, p⟩]) := by
  refine ⟨⟨h.ring.1, fun r hr hr' => ?_⟩, h.idx, h.ten, ?_, fun e he => ?_⟩
  · have := h.ring.2 r hr hr'
    rw [this]
    dsimp only
    rw [total_snoc]
    have : is r p = false := by unfold is; rw [decide_eq_false_iff_not]; omega
    simp [this]
  · show _ = total b.gain b.cost _ _
    rw [total_snoc, h.writer]
    simp [is]
  · rcases List.mem_append.1 he with he | he
    · exact h.past e he
    · cases List.mem_singleton.1 he
      exact ⟨b.time, 0, rfl, h1, h2, Nat.le_refl _, by simp, by simp⟩

theorem Inv.new {recip : Nat → Rat → Nat} {c : Profiles.Budget} {now : Nat} {b : Tps} (h : Tps.new recip c now = some b) :
    Inv b 10 [] ∧ b.time = now ∧ 0 < b.window := by
  unfold Tps.new at h
  split at h
  · cases h
  split at h
  · cases h
  split at h
  · cases h
  split at h
  · cases h
  split at h
  · cases h
  cases h
  refine ⟨⟨⟨rfl, fun r h1 h2 => ?_⟩, rfl, Nat.le_refl _, rfl, fun e he => absurd he List.not_mem_nil⟩, rfl, ?_⟩
  · dsimp only
    rw [List.getElem?_replicate, if_pos (by omega)]
    rfl
  · dsimp only; omega

/-! ## Histories of calls -/

theorem Same.refl (a : Tps) : Same a a := ⟨rfl, rfl, rfl, rfl⟩

theorem Same.trans {a b c : Tps} (h1 : Same a b) (h2 : Same b c) : Same a c :=
  ⟨h2.reserve.trans h1.reserve, h2.window.trans h1.window, h2.gain.trans h1.gain, h2.cost.trans h1.cost⟩

theorem tps_deposit (b : Tps) (now : Nat) :
    tps.deposit b now = { b.expire now with writer := (b.expire now).writer + amt (b.expire now).gain (b.expire now).cost .deposit } := rfl

theorem tps_withdraw (b : Tps) (now : Nat) : ∃ g, tps.withdraw b now =
      ({ b.expire now with writer := (b.expire now).writer + amt (b.expire now).gain (b.expire now).cost (.withdraw g) }, g) ∧
    (g = true ↔ ((b.expire now).cost : Int) ≤ (b.expire now).sum) := by
  show ∃ g, Tps.withdraw b now = _ ∧ _
  unfold Tps.withdraw
  dsimp only
  by_cases h : (b.expire now).sum ≥ (b.expire now).cost
  · rw [if_pos h]
    exact ⟨true, rfl, iff_of_true rfl h⟩
  · rw [if_neg h]
    refine ⟨false, ?_, iff_of_false (by decide) h⟩
    simp [amt]

theorem replay : ∀ (cs : List (Nat × Call)) (b : Tps) (p : Nat) (es : List Entry) (now : Nat) (g : Bool), Inv b p es → 0 < b.window →
    (∀ c ∈ cs, b.time ≤ c.1) → (cs.map (·.1)).Pairwise (· ≤ ·) → (∀ c ∈ cs, c.1 ≤ now) → b.time ≤ now →
    Answers tps b (cs ++ [(now, .withdraw g)]) →
    ∃ b' p' es', es'.map (fun e => (e.at_, e.call)) = es.map (fun e => (e.at_, e.call)) ++ cs ∧ Inv b' p' es' ∧ Same b b' ∧ b'.time ≤ now ∧
      (tps.withdraw b' now).2 = g := by
  intro cs
  induction cs with
  | nil =>
    intro b p es now g hi hw _ _ _ hn ha
    exact ⟨b, p, es, by simp, hi, .refl b, hn, ha.1⟩
  | cons c cs ih =>
    intro b p es now g hi hw hb hp hl hn ha
    obtain ⟨t, c⟩ := c
    obtain ⟨p1, i1, s1, t1, t2⟩ := hi.expire hw (hb _ List.mem_cons_self)
    rw [List.map_cons, List.pairwise_cons] at hp
    have hc := i1.add t1 (by rw [s1.window]; exact t2) c
    have hrest : ∀ b2 : Tps, b2 = { b.expire t with writer := (b.expire t).writer + amt (b.expire t).gain (b.expire t).cost c } →
        Answers tps b2 (cs ++ [(now, .withdraw g)]) →
        ∃ b' p' es', es'.map (fun e => (e.at_, e.call)) = es.map (fun e => (e.at_, e.call)) ++ (t, c) :: cs ∧ Inv b' p' es' ∧ Same b b' ∧
          b'.time ≤ now ∧ (tps.withdraw b' now).2 = g := by
      rintro b2 rfl ha2
      have htl : ∀ x ∈ cs, (b.expire t).time ≤ x.1 := fun x hx => Nat.le_trans t1 (hp.1 _ (List.mem_map_of_mem hx))
      obtain ⟨b', p', es', e1, e2, e3, e4, e5⟩ := ih _ p1 _ now g hc (by rw [show _ = b.window from s1.window]; exact hw) htl hp.2
        (fun x hx => hl x (List.mem_cons_of_mem _ hx)) (Nat.le_trans t1 (hl _ List.mem_cons_self)) ha2
      refine ⟨b', p', es', ?_, e2, s1.trans ⟨e3.reserve, e3.window, e3.gain, e3.cost⟩, e4, e5⟩
      rw [e1]; simp
    cases c with
    | deposit => exact hrest _ rfl ha
    | withdraw g' =>
      obtain ⟨a1, a2⟩ := ha
      obtain ⟨g2, w1, -⟩ := tps_withdraw b t
      rw [w1] at a1 a2
      dsimp only at a1
      subst a1
      exact hrest _ rfl a2

/-- The calls at times that `p` holds of, by what they are. -/
def count (cs : List (Nat × Call)) (c : Call) (p : Nat → Bool) : Nat := cs.countP fun x => decide (x.2 = c) && p x.1

theorem count_cons (cs : List (Nat × Call)) (x : Nat × Call) (c : Call) (p : Nat → Bool) :
    count (x :: cs) c p = count cs c p + if x.2 = c ∧ p x.1 = true then 1 else 0 := by
  unfold count
  rw [List.countP_cons]
  congr 1
  simp

theorem total_le {gain cost : Nat} {es : List Entry} {live : Nat → Bool} {short long : Nat → Bool}
    (h1 : ∀ e ∈ es, short e.at_ = true → live e.pos = true) (h2 : ∀ e ∈ es, live e.pos = true → long e.at_ = true) :
    total gain cost es live ≤ gain * count (es.map fun e => (e.at_, e.call)) .deposit long -
      cost * count (es.map fun e => (e.at_, e.call)) (.withdraw true) short ∧
    gain * count (es.map fun e => (e.at_, e.call)) .deposit short - cost * count (es.map fun e => (e.at_, e.call)) (.withdraw true) long ≤
      total gain cost es live := by
  induction es with
  | nil => simp [total, count]
  | cons e es ih =>
    obtain ⟨i1, i2⟩ := ih (fun x hx => h1 x (List.mem_cons_of_mem _ hx)) (fun x hx => h2 x (List.mem_cons_of_mem _ hx))
    have g1 := h1 e List.mem_cons_self
    have g2 := h2 e List.mem_cons_self
    rw [total_cons]
    simp only [List.map_cons, count_cons]
    generalize total gain cost es live = t at i1 i2 ⊢
    generalize count (es.map fun e => (e.at_, e.call)) .deposit long = n1 at i1 ⊢
    generalize count (es.map fun e => (e.at_, e.call)) (.withdraw true) short = n2 at i1 ⊢
    generalize count (es.map fun e => (e.at_, e.call)) .deposit short = n3 at i2 ⊢
    generalize count (es.map fun e => (e.at_, e.call)) (.withdraw true) long = n4 at i2 ⊢
    obtain ⟨at_, c, pos⟩ := e
    dsimp only at g1 g2 ⊢
    have key : ∀ (s l v : Bool), (s = true → v = true) → (v = true → l = true) →
        ((if v then amt gain cost c else 0) + t ≤ gain * ((n1 + (if c = .deposit ∧ l = true then 1 else 0) : Nat) : Int) -
          cost * ((n2 + (if c = .withdraw true ∧ s = true then 1 else 0) : Nat) : Int)) ∧
        (gain * ((n3 + (if c = .deposit ∧ s = true then 1 else 0) : Nat) : Int) -
          cost * ((n4 + (if c = .withdraw true ∧ l = true then 1 else 0) : Nat) : Int) ≤ (if v then amt gain cost c else 0) + t) := by
      intro s l v k1 k2
      rcases c with _ | ⟨_ | _⟩ <;> cases s <;> cases l <;> cases v <;>
        first
        | exact absurd (k1 rfl) (by decide)
        | exact absurd (k2 rfl) (by decide)
        | (simp [amt, Int.mul_add]; omega)
    exact key _ _ _ g1 g2

theorem Inv.bounds {b : Tps} {p : Nat} {es : List Entry} (h : Inv b p es) {now : Nat} (h1 : b.time ≤ now) (h2 : now < b.time + b.window)
    {e : Entry} (he : e ∈ es) :
    (2 * now ≤ 2 * e.at_ + 9 * b.window → p ≤ e.pos + 10) ∧ (p ≤ e.pos + 10 → now < e.at_ + 11 * b.window) := by
  obtain ⟨g, k, k1, k2, k3, k4, k5, k6⟩ := h.past e he
  refine ⟨fun hs => ?_, fun hl => ?_⟩
  · rcases Nat.lt_or_ge k 11 with hk | hk
    · omega
    · have := Nat.mul_le_mul_right b.window hk
      omega
  · have : k ≤ 10 := by omega
    have := Nat.mul_le_mul_right b.window this
    omega

/-- C50. How much the budget allows in how much time. Of its time to live, which is ten windows: a retry is allowed only if the retries of the last
4.5 windows, with it, cost no more than the reserve and what the deposits of the last 11 windows gained; and it is refused only if the retries
of the last 11 windows, with it, cost more than the reserve and what the deposits of the last 4.5 windows gained. -/
theorem C50_budget (recip : Nat → Rat → Nat) (c : Profiles.Budget) (start : Nat) (b : Tps) (hb : Tps.new recip c start = some b)
    (cs : List (Nat × Call)) (now : Nat) (granted : Bool) (hs : ∀ x ∈ cs, start ≤ x.1) (ho : (cs.map (·.1)).Pairwise (· ≤ ·))
    (hl : ∀ x ∈ cs, x.1 ≤ now) (hn : start ≤ now) (ha : Answers tps b (cs ++ [(now, .withdraw granted)])) :
    (granted = true → (b.cost * (count cs (.withdraw true) (fun t => decide (2 * now ≤ 2 * t + 9 * (c.ttl / 10))) + 1) : Int) ≤
      c.minPerSec * (c.ttl / 1000000000 : Nat) * b.cost + b.gain * count cs .deposit (fun t => decide (now < t + 11 * (c.ttl / 10)))) ∧
    (granted = false → (c.minPerSec * (c.ttl / 1000000000 : Nat) * b.cost +
        b.gain * count cs .deposit (fun t => decide (2 * now ≤ 2 * t + 9 * (c.ttl / 10))) : Int) <
      b.cost * (count cs (.withdraw true) (fun t => decide (now < t + 11 * (c.ttl / 10))) + 1)) := by
  obtain ⟨i0, t0, w0⟩ := Inv.new hb
  obtain ⟨r0, w1⟩ : b.reserve = c.minPerSec * (c.ttl / 1000000000 : Nat) * b.cost ∧ b.window = c.ttl / 10 := by
    unfold Tps.new at hb
    repeat (split at hb; (· cases hb))
    cases hb
    exact ⟨by simp, rfl⟩
  obtain ⟨b1, p1, es, e1, i1, s1, t1, g1⟩ := replay cs b 10 [] now granted i0 w0 (by rw [t0]; exact hs) ho hl (by rw [t0]; exact hn) ha
  obtain ⟨p2, i2, s2, t2, t3⟩ := i1.expire (by rw [s1.window]; exact w0) t1
  obtain ⟨g, wd, hg⟩ := tps_withdraw b1 now
  rw [wd] at g1
  dsimp only at g1
  subst g1
  have s3 := s1.trans s2
  rw [i2.sum, s3.reserve, s3.gain, s3.cost] at hg
  have hB := fun (e : Entry) (he : e ∈ es) => i2.bounds t2 (by rw [s2.window]; exact t3) he
  obtain ⟨u, l⟩ := total_le (gain := b.gain) (cost := b.cost) (es := es) (live := fun n => decide (p2 ≤ n + 10))
    (short := fun t => decide (2 * now ≤ 2 * t + 9 * (c.ttl / 10))) (long := fun t => decide (now < t + 11 * (c.ttl / 10)))
    (fun e he h => by
      have := (hB e he).1
      rw [s3.window, w1] at this
      simp only [decide_eq_true_eq] at h ⊢
      exact this h)
    (fun e he h => by
      have := (hB e he).2
      rw [s3.window, w1] at this
      simp only [decide_eq_true_eq] at h ⊢
      exact this h)
  rw [e1, List.map_nil, List.nil_append] at u l
  rw [r0] at hg
  refine ⟨fun h => ?_, fun h => ?_⟩
  · have := hg.1 h
    rw [Int.mul_add]
    omega
  · have : ¬ _ := fun h' => Bool.noConfusion (h.symm.trans (hg.2 h'))
    rw [Int.mul_add]
    omega

/-! ## Histories of a route -/

/-- The times at which operations see results. -/
def answerTimes (ops : List Op) : List Nat :=
  ops.filterMap fun
    | .answer _ now _ _ _ => some now
    | _ => none

/-- The times of a history's deposits. -/
def depositTimes (evs : List Event) : List Nat :=
  evs.filterMap fun
    | (.answer _ now _ _ _, _, some .deposit) => some now
    | _ => none

theorem calls_times (bud : Budget B) (p : Bool) (classes : List ResponseClass) (s : State B) (ops : List Op) :
    ((calls (run bud p classes s ops).2).map (·.1)).Sublist (answerTimes ops) := by
  induction ops generalizing s with
  | nil => exact .slnil
  | cons o ops ih =>
    have ih := ih (step bud p classes s o).1
    show ((calls ((o, (step bud p classes s o).2) :: (run bud p classes (step bud p classes s o).1 ops).2)).map (·.1)).Sublist _
    generalize (run bud p classes (step bud p classes s o).1 ops).2 = evs at ih ⊢
    generalize (step bud p classes s o).2 = x
    obtain ⟨out, c⟩ := x
    cases o with
    | call h t => exact ih
    | answer i now res capped ready =>
      cases c with
      | none => exact ih.cons _
      | some c => exact ih.cons₂ _

theorem count_grants (evs : List Event) (q : Nat → Bool) : count (calls evs) (.withdraw true) q = (grantTimes evs).countP q := by
  induction evs with
  | nil => rfl
  | cons e evs ih =>
    obtain ⟨o, out, c⟩ := e
    unfold count calls grantTimes at ih ⊢
    simp only [List.filterMap_cons] at ih ⊢
    match o, c with
    | .call _ _, none => simpa using ih
    | .call _ _, some _ => simpa using ih
    | .answer _ _ _ _ _, none => simpa using ih
    | .answer _ _ _ _ _, some .deposit => simpa using ih
    | .answer _ _ _ _ _, some (.withdraw true) => simpa [List.countP_cons] using ih
    | .answer _ _ _ _ _, some (.withdraw false) => simpa using ih

theorem count_deposits (evs : List Event) (q : Nat → Bool) : count (calls evs) .deposit q = (depositTimes evs).countP q := by
  induction evs with
  | nil => rfl
  | cons e evs ih =>
    obtain ⟨o, out, c⟩ := e
    unfold count calls depositTimes at ih ⊢
    simp only [List.filterMap_cons] at ih ⊢
    match o, c with
    | .call _ _, none => simpa using ih
    | .call _ _, some _ => simpa using ih
    | .answer _ _ _ _ _, none => simpa using ih
    | .answer _ _ _ _ _, some .deposit => simpa [List.countP_cons] using ih
    | .answer _ _ _ _ _, some (.withdraw true) => simpa using ih
    | .answer _ _ _ _ _, some (.withdraw false) => simpa using ih

/-- Calls at times in units of `u` nanoseconds, in nanoseconds. -/
def scale (u : Nat) (cs : List (Nat × Call)) : List (Nat × Call) := cs.map fun c => (c.1 * u, c.2)

theorem answers_scale (u : Nat) : ∀ (cs : List (Nat × Call)) (b : Tps), Answers (tpsIn u) b cs → Answers tps b (scale u cs)
  | [], _, _ => trivial
  | (_, .deposit) :: cs, _, h => answers_scale u cs _ h
  | (_, .withdraw _) :: cs, _, h => ⟨h.1, answers_scale u cs _ h.2⟩

theorem count_scale (u : Nat) (cs : List (Nat × Call)) (c : Call) (q : Nat → Bool) : count (scale u cs) c q = count cs c (fun t => q (t * u)) := by
  unfold count scale
  rw [List.countP_map]
  rfl

/-- C50. Retries in time: for a route with a profile's budget, whenever a request is sent again, the resends of the last 0.45 times to live, with this
one, are no more than the reserve and what was gained by those answers of the last 1.1 times to live that were not to be retried. Times are in units
of `u` nanoseconds. -/
theorem C50_retries_in_time (recip : Nat → Rat → Nat) (c : Profiles.Budget) (start u : Nat) (b : Tps) (hb : Tps.new recip c (start * u) = some b)
    (p : Bool) (classes : List ResponseClass) (ops : List Op) (i now : Nat) (res : Result) (capped : Option Bool) (ready : Bool)
    (hs : ∀ t ∈ answerTimes (ops ++ [.answer i now res capped ready]), start ≤ t)
    (ho : (answerTimes (ops ++ [.answer i now res capped ready])).Pairwise (· ≤ ·)) (h : Head)
    (hr : (step (tpsIn u) p classes (run (tpsIn u) p classes (init b) ops).1 (.answer i now res capped ready)).2.1 = .resent h) :
    b.cost * ((resendTimes (run (tpsIn u) p classes (init b) ops).2).countP (fun t => decide (2 * (now * u) ≤ 2 * (t * u) + 9 * (c.ttl / 10))) + 1) ≤
      c.minPerSec * (c.ttl / 1000000000) * b.cost +
        b.gain * (depositTimes (run (tpsIn u) p classes (init b) ops).2).countP (fun t => decide (now * u < t * u + 11 * (c.ttl / 10))) := by
  have hall := C50_every_resend_was_granted (tpsIn u) p classes b (ops ++ [.answer i now res capped ready])
  have hpre := (C50_every_resend_was_granted (tpsIn u) p classes b ops).2
  have hsub := calls_times (tpsIn u) p classes (init b) ops
  have hlast : (step (tpsIn u) p classes (run (tpsIn u) p classes (init b) ops).1 (.answer i now res capped ready)).2.2 = some (.withdraw true) := by
    rcases step_cases (tpsIn u) p classes (run (tpsIn u) p classes (init b) ops).1 (.answer i now res capped ready) with
      ⟨-, -, h3⟩ | ⟨_, _, _, _, _, -, ⟨-, -, h3⟩ | h3⟩
    · exact absurd hr (h3 h)
    · exact absurd hr (h3 h)
    · rcases h3 with ⟨-, -, -, h3⟩ | h3
      · exact absurd hr (h3 h)
      · exact h3.1
  rw [run_snoc] at hall
  generalize hx : step (tpsIn u) p classes (run (tpsIn u) p classes (init b) ops).1 (.answer i now res capped ready) = x at hall hr hlast
  obtain ⟨s, out, call⟩ := x
  dsimp only at hr hlast
  subst hr hlast
  generalize (run (tpsIn u) p classes (init b) ops).2 = evs at hall hpre hsub ⊢
  have hc : calls (evs ++ [(Op.answer i now res capped ready, Out.resent h, some (Call.withdraw true))]) = calls evs ++ [(now, .withdraw true)] := by
    unfold calls
    rw [List.filterMap_append]
    rfl
  have ha := hall.1
  dsimp only at ha
  rw [hc] at ha
  have ha := answers_scale u _ _ ha
  rw [show scale u (calls evs ++ [(now, .withdraw true)]) = scale u (calls evs) ++ [(now * u, .withdraw true)] from List.map_append] at ha
  have hat : answerTimes (ops ++ [.answer i now res capped ready]) = answerTimes ops ++ [now] := by
    unfold answerTimes
    rw [List.filterMap_append]
    rfl
  rw [hat] at hs ho
  rw [List.pairwise_append] at ho
  have hmem : ∀ x ∈ scale u (calls evs), ∃ t ∈ answerTimes ops, x.1 = t * u := by
    intro x hx
    obtain ⟨y, hy, rfl⟩ := List.mem_map.1 hx
    exact ⟨y.1, hsub.subset (List.mem_map_of_mem hy), rfl⟩
  have hpw : ((scale u (calls evs)).map (·.1)).Pairwise (· ≤ ·) := by
    have := ho.1.sublist hsub
    rw [List.pairwise_map] at this
    unfold scale
    rw [List.map_map, List.pairwise_map]
    exact this.imp fun h => Nat.mul_le_mul_right u h
  have key := (C50_budget recip c (start * u) b hb (scale u (calls evs)) (now * u) true
    (fun x hx => by
      obtain ⟨t, ht, e⟩ := hmem x hx
      rw [e]
      exact Nat.mul_le_mul_right u (hs t (List.mem_append_left _ ht)))
    hpw
    (fun x hx => by
      obtain ⟨t, ht, e⟩ := hmem x hx
      rw [e]
      exact Nat.mul_le_mul_right u (ho.2.2 t ht now (by simp)))
    (Nat.mul_le_mul_right u (hs now (by simp))) ha).1 rfl
  rw [count_scale, count_scale, count_grants, count_deposits] at key
  have hle := hpre.countP_le (p := fun t => decide (2 * (now * u) ≤ 2 * (t * u) + 9 * (c.ttl / 10)))
  have hmul := Nat.mul_le_mul_left b.cost (Nat.succ_le_succ hle)
  refine Nat.le_trans hmul ?_
  exact_mod_cast key

/-- The same of a whole history. -/
theorem retries_in_time (recip : Nat → Rat → Nat) (c : Profiles.Budget) (start u : Nat) (b : Tps) (hb : Tps.new recip c (start * u) = some b)
    (p : Bool) (classes : List ResponseClass) (ops : List Op) (hs : ∀ t ∈ answerTimes ops, start ≤ t)
    (ho : (answerTimes ops).Pairwise (· ≤ ·)) (before : List Nat) (now : Nat) (after : List Nat)
    (hr : resendTimes (run (tpsIn u) p classes (init b) ops).2 = before ++ now :: after) :
    b.cost * (before.countP (fun t => decide (2 * (now * u) ≤ 2 * (t * u) + 9 * (c.ttl / 10))) + 1) ≤
      c.minPerSec * (c.ttl / 1000000000) * b.cost +
        b.gain * (depositTimes (run (tpsIn u) p classes (init b) ops).2).countP
          (fun t => decide (t ≤ now) && decide (now * u < t * u + 11 * (c.ttl / 10))) := by
  induction ops using snoc_induction generalizing after with
  | nil => exact absurd hr (by simp [run, resendTimes])
  | snoc ops o ih =>
    have hat : answerTimes (ops ++ [o]) = answerTimes ops ++ answerTimes [o] := List.filterMap_append
    have hsub := calls_times (tpsIn u) p classes (init b) ops
    have ih := ih (fun t ht => hs t (by rw [hat]; exact List.mem_append_left _ ht)) (by rw [hat, List.pairwise_append] at ho; exact ho.1)
    have hlast := fun i now' res capped ready (e : o = .answer i now' res capped ready) h =>
      C50_retries_in_time recip c start u b hb p classes ops i now' res capped ready (e ▸ hs) (e ▸ ho) h
    rw [run_snoc] at hr ⊢
    generalize run (tpsIn u) p classes (init b) ops = x at ih hlast hr hsub ⊢
    obtain ⟨s, evs⟩ := x
    dsimp only at ih hlast hr hsub ⊢
    have hmono : (depositTimes evs).countP (fun t => decide (t ≤ now) && decide (now * u < t * u + 11 * (c.ttl / 10))) ≤
        (depositTimes (evs ++ [(o, (step (tpsIn u) p classes s o).2)])).countP
          (fun t => decide (t ≤ now) && decide (now * u < t * u + 11 * (c.ttl / 10))) := by
      unfold depositTimes
      rw [List.filterMap_append, List.countP_append]
      exact Nat.le_add_right _ _
    refine Nat.le_trans ?_ (Nat.add_le_add_left (Nat.mul_le_mul_left b.gain hmono) _)
    have hra : resendTimes (evs ++ [(o, (step (tpsIn u) p classes s o).2)]) = resendTimes evs ++ resendTimes [(o, (step (tpsIn u) p classes s o).2)] :=
      List.filterMap_append
    rw [hra] at hr
    rcases hone : resendTimes [(o, (step (tpsIn u) p classes s o).2)] with _ | ⟨t, ts⟩
    · rw [hone, List.append_nil] at hr
      exact ih after hr
    · -- the last operation is a resend
      obtain ⟨i, now', res, capped, ready, h, rfl, hout⟩ : ∃ i now' res capped ready h, o = .answer i now' res capped ready ∧
          (step (tpsIn u) p classes s o).2.1 = .resent h := by
        generalize step (tpsIn u) p classes s o = y at hone ⊢
        obtain ⟨y1, y2, y3⟩ := y
        unfold resendTimes at hone
        match o, y2 with
        | .answer i now' res capped ready, .resent h => exact ⟨i, now', res, capped, ready, h, rfl, rfl⟩
        | .answer i now' res capped ready, .sent h => exact absurd hone (by simp)
        | .answer i now' res capped ready, .returned => exact absurd hone (by simp)
        | .answer i now' res capped ready, .unready => exact absurd hone (by simp)
        | .answer i now' res capped ready, .absent => exact absurd hone (by simp)
        | .call h t, _ => exact absurd hone (by simp)
      have hone' : resendTimes [(Op.answer i now' res capped ready, (step (tpsIn u) p classes s (.answer i now' res capped ready)).2)] = [now'] := by
        generalize step (tpsIn u) p classes s (.answer i now' res capped ready) = y at hout ⊢
        obtain ⟨y1, y2, y3⟩ := y
        dsimp only at hout
        subst hout
        rfl
      rw [hone'] at hr
      rcases List.eq_nil_or_concat after with rfl | ⟨after', e, rfl⟩
      · obtain ⟨h1, h2⟩ := List.append_inj' hr rfl
        cases h2
        subst h1
        refine Nat.le_trans (hlast i now res capped ready rfl h hout) ?_
        refine Nat.add_le_add_left (Nat.mul_le_mul_left _ (Nat.le_of_eq (List.countP_congr fun t ht => ?_))) _
        have hle : t ≤ now := by
          have hm : t ∈ (calls evs).map (·.1) := by
            unfold depositTimes at ht
            obtain ⟨e, he, h1⟩ := List.mem_filterMap.1 ht
            unfold calls
            obtain ⟨o, out, cl⟩ := e
            match o, cl with
            | .answer _ _ _ _ _, some .deposit =>
              cases h1
              exact List.mem_map.2 ⟨_, List.mem_filterMap.2 ⟨_, he, rfl⟩, rfl⟩
            | .answer _ _ _ _ _, none => cases h1
            | .answer _ _ _ _ _, some (.withdraw _) => cases h1
            | .call _ _, _ => cases h1
          rw [hat, List.pairwise_append] at ho
          exact ho.2.2 t (hsub.subset hm) now (by simp [answerTimes])
        simp [hle]
      · rw [List.concat_eq_append, ← List.cons_append, ← List.append_assoc] at hr
        exact ih after' (List.append_inj' hr rfl).1

/-! ## The budgets of profiles -/

/-- C67. A budget that was read from a profile is made, unless it has 2^31 - 1 retries a second: of its ratio, no more than that a retry costs one
token and nothing gains one if it is zero, that requests gain one token if it is at most one, and a thousand otherwise. -/
theorem C67_budget_made (recip : Nat → Rat → Nat) (m : Profiles.ApiRetryBudget) (c : Profiles.Budget) (h : Profiles.convertRetryBudget m = some c)
    (hm : m.minRetriesPerSecond ≠ 2147483647) (now : Nat) :
    ∃ b, Tps.new recip c now = some b ∧
      (c.ratio = 0 → b.gain = 0 ∧ b.cost = 1) ∧
      (c.ratio ≠ 0 → c.ratio ≤ 1 → b.gain = 1 ∧ b.cost = recip 1 c.ratio) ∧
      (1 < c.ratio → b.gain = 1000 ∧ b.cost = recip 1000 c.ratio) := by
  obtain ⟨h1, h2, -, h3, h4, d, -, -, -, -, -, h5, h6⟩ := (Profiles.C67_budget m c).1 h
  unfold Tps.new
  rw [if_neg (by omega), if_neg (by omega), if_neg (fun h => absurd h3 (Rat.not_le.2 h)), if_neg (fun h => absurd h4 (Rat.not_le.2 h)),
    if_neg (by omega)]
  refine ⟨_, rfl, fun h0 => ?_, fun h0 h1 => ?_, fun h1 => ?_⟩
  · simp [amounts, h0]
  · simp [amounts, h0, h1]
  · have n1 : ¬ c.ratio ≤ 1 := Rat.not_le.2 h1
    have n0 : ¬ c.ratio = 0 := fun h0 => n1 (by rw [h0]; decide)
    simp [amounts, n0, n1]

/-- C67, a limit. A profile whose budget has 2^31 - 1 retries a second passes the checks of proto.rs:173-188, but `TpsBudget::new` asserts that there are
fewer: the task that reads the profile panics. -/
theorem C67_limit_budget_panics (recip : Nat → Rat → Nat) (now : Nat) :
    ∃ c, Profiles.convertRetryBudget ⟨2147483647, some (1 / 5), some ⟨10, 0⟩⟩ = some c ∧ Tps.new recip c now = none := by
  refine ⟨⟨10000000000, 2147483647, 1 / 5⟩, (Profiles.C67_budget _ _).2 ⟨rfl, by decide, rfl, by decide +kernel, by decide +kernel, ⟨10, 0⟩, rfl, by decide, by decide, by decide,
    by decide, by decide, by decide⟩, ?_⟩
  unfold Tps.new
  dsimp only
  rw [if_neg (by decide), if_neg (by decide), if_neg (by decide +kernel), if_neg (by decide +kernel), if_pos (by decide)]

/-- What a budget answers to calls: `true` is a withdrawal. -/
def ask : Tps → List (Nat × Bool) → List Bool
  | _, [] => []
  | b, (now, false) :: cs => ask (b.deposit now) cs
  | b, (now, true) :: cs => (b.withdraw now).2 :: ask (b.withdraw now).1 cs

/-- One retry a second, and nothing for requests. -/
def oneASecond : Option Tps := Tps.new (fun n _ => n) ⟨1000000000, 1, 0⟩ 0

/-- The reserve is there again after the time to live, so that retries are not bounded but in time. -/
theorem C50_limit_reserve_renews : oneASecond.map (fun b => ask b [(0, true), (1000000, true), (2000000000, true)]) = some [true, false, true] := by
  decide +kernel

/-- Windows are counted up to twice as fast as they pass: a call every 1.01 windows makes a withdrawal forgotten after some 0.6 of the time to live. So
the first bound of `C50_budget` cannot be one for the whole time to live. -/
theorem C50_limit_early : oneASecond.map (fun b => ask b
    [(0, true), (101000000, false), (202000000, false), (303000000, false), (404000000, false), (505000000, false), (606000000, true)]) =
      some [true, true] := by
  decide +kernel

/-- Two retries a second, and one for five requests: of three failures two are retried, and with five requests that succeed a third. -/
example : (Tps.new (fun n _ => n * 5) ⟨1000000000, 2, 1 / 5⟩ 0).map (fun b => (b.gain, b.cost, b.reserve, ask b
    [(5, true), (6, true), (7, true), (8, false), (9, false), (10, false), (11, false), (12, true), (13, false), (14, true), (15, true)])) =
      some (1, 5, 10, [true, true, false, false, true, false]) := by
  decide +kernel

private def aHead : Head := ⟨"GET".toList, "/".toList, 2, [], []⟩

/-- A route with one retry a second: the first failure is retried, the second is not, and one two seconds later is. -/
example : oneASecond.map (fun b => (run (tpsIn 1) true [] (init b)
    [.call aHead false, .call aHead false, .answer 0 5 (.response 503 [] none) (some false) true, .answer 0 6 (.response 200 [] none) (some false) true,
     .answer 1 7 (.response 503 [] none) (some false) true, .call aHead false, .answer 2 2000000007 (.response 503 [] none) (some false) true]).2.map (·.2.1)) =
    some [.sent aHead, .sent aHead, .resent aHead, .returned, .returned, .sent aHead, .resent aHead] := by
  decide +kernel

end Verif.ProfileRetry
