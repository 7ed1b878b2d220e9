import Verif.ServerPolicy.RateLimitProps

/-!
# What the rates of the local rate limit mean

`local_rate_limit.rs:50-62` makes limiters of the crate `governor` (0.10) by `Quota::per_second(rps)`. The crate is not in the repository; its algorithm
(the generic cell rate algorithm) is written out here, as it is documented, so that the limits of C31 can be stated in requests and time. Times are in
nanoseconds.
-/

namespace Verif.ServerPolicy

open Verif.HttpRoute (Str)

/-- `Gcra::test_and_update`: the state is the time at which the next request is expected; each request is expected `t` after the one before, and may come
up to `tau` early. A refused request leaves the state as it is. -/
def gcra (t tau : Nat) : Limiter (Option Nat) Nat where
  fresh := none
  check := fun now s =>
    let tat := s.getD now
    if now + tau < tat then (false, s) else (true, some (max tat now + t))

/-- `Quota::per_second`: a request each `1s / rps` (in whole nanoseconds), and `rps` at once. -/
def perSecond (rps : Nat) : Limiter (Option Nat) Nat := gcra (1000000000 / rps) (1000000000 / rps * (rps - 1))

/-! ## Lemmas -/

/-- Since each of the requests `l` there have been so few that the next is expected by `x`. -/
def Expected (t : Nat) (l : List Nat) (x : Nat) : Prop := ∀ a s b, l = a ++ s :: b → s + (b.length + 1) * t ≤ x

theorem expected_nil (t x : Nat) : Expected t [] x := by
  intro a s b h
  have := congrArg List.length h
  simp at this

theorem expected_snoc (t : Nat) (l : List Nat) (e x : Nat) : Expected t (l ++ [e]) (x + t) ↔ Expected t l x ∧ e ≤ x := by
  constructor
  · intro h
    refine ⟨fun a s b hl => ?_, ?_⟩
    · have := h a s (b ++ [e]) (by simp [hl])
      simp only [List.length_append, List.length_cons, List.length_nil, Nat.add_mul, Nat.one_mul] at this ⊢
      omega
    · have := h l e [] rfl
      simp at this
      omega
  · rintro ⟨h, he⟩ a s b hl
    rcases List.eq_nil_or_concat b with rfl | ⟨b', e', rfl⟩
    · have := List.append_inj' hl rfl
      simp at this
      simp [← this.2]; omega
    · rw [List.concat_eq_append] at hl ⊢
      have hl : l ++ [e] = (a ++ s :: b') ++ [e'] := by simpa using hl
      have h2 := h a s b' (List.append_inj' hl rfl).1
      simp only [List.length_append, List.length_cons, List.length_nil, Nat.add_mul, Nat.one_mul] at h2 ⊢
      omega

theorem expected_lt (t : Nat) (l : List Nat) (e x : Nat) (h : Expected t (l ++ [e]) x) : t ≤ x := by
  have := h l e [] rfl
  simp at this
  omega

theorem gcra_check (t tau now : Nat) (v : Option Nat) : (gcra t tau).check now v =
    if now + tau < v.getD now then (false, v) else (true, some (max (v.getD now) now + t)) := rfl

theorem gcra_admits (t tau : Nat) (h : List Nat) (e : Nat) (v : Option Nat) (hv : (gcra t tau).seen h = v) :
    (gcra t tau).Admits h e ↔ ¬ e + tau < v.getD e := by
  simp only [Limiter.Admits, hv, gcra_check]
  split <;> simp [*]

theorem gcra_seen (t tau : Nat) (h : List Nat) :
    ((gcra t tau).seen h = none ∧ kept (gcra t tau).Admits h = []) ∨
    ∃ v, (gcra t tau).seen h = some v ∧ kept (gcra t tau).Admits h ≠ [] ∧ ∀ x, v ≤ x ↔ Expected t (kept (gcra t tau).Admits h) x := by
  induction h using snoc_induction with
  | nil => exact .inl ⟨rfl, rfl⟩
  | snoc h e ih =>
    rw [seen_snoc, kept_snoc]
    have admits := gcra_admits t tau h e
    rcases ih with ⟨h1, h2⟩ | ⟨v, h1, h2, h3⟩
    · have ha : (gcra t tau).Admits h e := (admits none h1).2 (by simp)
      right
      refine ⟨e + t, ?_, by simp [ha], ?_⟩
      · rw [h1, gcra_check, Option.getD_none, if_neg (by omega), Nat.max_self]
      · intro x
        rw [h2, if_pos ha, List.nil_append]
        constructor
        · intro hx
          obtain ⟨y, rfl⟩ := Nat.exists_eq_add_of_le (show t ≤ x by omega)
          have := (expected_snoc t [] e y).2 ⟨expected_nil t y, by omega⟩
          rw [List.nil_append] at this
          rwa [Nat.add_comm t y]
        · intro hx
          have := hx [] e [] rfl
          simpa using this
    · right
      have hc : (gcra t tau).check e (some v) = if e + tau < v then (false, some v) else (true, some (max v e + t)) := rfl
      by_cases ha : (gcra t tau).Admits h e
      · have hn := (admits _ h1).1 ha
        simp only [Option.getD_some] at hn
        rw [h1, hc, if_neg hn, if_pos ha]
        refine ⟨_, rfl, by simp, fun x => ?_⟩
        constructor
        · intro hx
          obtain ⟨y, rfl⟩ := Nat.exists_eq_add_of_le (show t ≤ x by omega)
          rw [Nat.add_comm t y]
          exact (expected_snoc ..).2 ⟨(h3 y).1 (by omega), by omega⟩
        · intro hx
          obtain ⟨y, rfl⟩ := Nat.exists_eq_add_of_le (expected_lt _ _ _ _ hx)
          rw [Nat.add_comm t y] at hx
          obtain ⟨h4, h5⟩ := (expected_snoc ..).1 hx
          have := (h3 y).2 h4
          omega
      · have hn : e + tau < v := by
          have := mt (admits _ h1).2 ha
          simpa using this
        rw [h1, hc, if_pos hn, if_neg ha, List.append_nil]
        exact ⟨v, rfl, h2, h3⟩

/-- **What a limiter admits**: a request is refused exactly if it would be too many since one of those admitted before: since that, with it, there would be
more than one every `t`, and `tau` in advance. -/
theorem C31_admits_iff (t tau : Nat) (h : List Nat) (now : Nat) : (gcra t tau).Admits h now ↔
    ∀ before s since, kept (gcra t tau).Admits h = before ++ s :: since → s + (since.length + 1) * t ≤ now + tau := by
  rcases gcra_seen t tau h with ⟨h1, h2⟩ | ⟨v, h1, h2, h3⟩
  · rw [h2]
    refine ⟨fun _ => expected_nil _ _, fun _ => ?_⟩
    exact (gcra_admits t tau h now none h1).2 (by simp)
  · rw [show (∀ before s since, _ → _) ↔ _ from (h3 (now + tau)).symm]
    rw [gcra_admits t tau h now _ h1]
    simp

theorem filter_suffix (l : List Nat) (hl : l.Pairwise (· ≤ ·)) (x : Nat) : ∃ a, l = a ++ l.filter (fun s => decide (x ≤ s)) := by
  induction l with
  | nil => exact ⟨[], rfl⟩
  | cons e l ih =>
    rw [List.pairwise_cons] at hl
    by_cases he : x ≤ e
    · refine ⟨[], ?_⟩
      rw [List.nil_append, List.filter_eq_self.2]
      intro s hs
      rcases List.mem_cons.1 hs with rfl | hs
      · simpa using he
      · have := hl.1 s hs; simp; omega
    · obtain ⟨a, ha⟩ := ih hl.2
      exact ⟨e :: a, by rw [List.filter_cons_of_neg (by simpa using he), List.cons_append, ← ha]⟩

/-- A request's time is in a window. -/
def within (x y s : Nat) : Bool := decide (x ≤ s) && decide (s ≤ y)

/-- **No more than the rate and the burst**, in any window of time. -/
theorem C31_at_most_the_rate (t tau : Nat) (h : List Nat) (hm : h.Pairwise (· ≤ ·)) (x y : Nat) (hxy : x ≤ y) :
    (kept (gcra t tau).Admits h).countP (within x y) * t ≤ (y - x) + (tau + t) := by
  induction h using snoc_induction with
  | nil => simp [kept_nil]
  | snoc h e ih =>
    rw [List.pairwise_append] at hm
    have ih := ih hm.1
    rw [kept_snoc]
    by_cases ha : (gcra t tau).Admits h e
    · rw [if_pos ha, List.countP_append]
      by_cases he : within x y e = true
      · have hle : ∀ s ∈ kept (gcra t tau).Admits h, s ≤ e := fun s hs => hm.2.2 s ((kept_sublist _ _).mem hs) e (by simp)
        have hc : (kept (gcra t tau).Admits h).countP (within x y) =
            ((kept (gcra t tau).Admits h).filter (fun s => decide (x ≤ s))).length := by
          rw [List.countP_eq_length_filter]
          congr 1
          apply List.filter_congr
          intro s hs
          have := hle s hs
          simp only [within, Bool.and_eq_true, decide_eq_true_eq] at he
          have : s ≤ y := by omega
          simp [within, this]
        simp only [within, Bool.and_eq_true, decide_eq_true_eq] at he
        rw [hc]
        have hone : List.countP (within x y) [e] = 1 := by simp [within, he]
        rw [hone]
        obtain ⟨a, hs⟩ := filter_suffix _ (hm.1.sublist (kept_sublist (gcra t tau).Admits h)) x
        cases hf : (kept (gcra t tau).Admits h).filter (fun s => decide (x ≤ s)) with
        | nil => simp; omega
        | cons s b =>
          rw [hf] at hs
          have h1 := (C31_admits_iff t tau h e).1 ha a s b hs
          have h2 : x ≤ s := by
            have := List.mem_filter.1 (show s ∈ (kept (gcra t tau).Admits h).filter (fun s => decide (x ≤ s)) by rw [hf]; simp)
            simpa using this.2
          simp only [List.length_cons, Nat.add_mul, Nat.one_mul] at h1 ⊢
          omega
      · have hz : List.countP (within x y) [e] = 0 := by simp [he]
        rw [hz, Nat.add_zero]
        exact ih
    · rw [if_neg ha, List.append_nil]
      exact ih

/-- **Whoever keeps to the rate is never refused.** -/
theorem C31_keeping_to_the_rate (t tau : Nat) (h : List Nat) (hs : h.Pairwise (fun a b => a + t ≤ b)) : kept (gcra t tau).Admits h = h := by
  induction h using snoc_induction with
  | nil => rfl
  | snoc h e ih =>
    rw [List.pairwise_append] at hs
    have ih := ih hs.1
    have sp : ∀ (b : List Nat) (s : Nat), (s :: b).Pairwise (fun a b => a + t ≤ b) → (∀ z ∈ s :: b, z + t ≤ e) → s + (b.length + 1) * t ≤ e := by
      intro b
      induction b with
      | nil => intro s _ hz; have := hz s (by simp); simpa using this
      | cons c b ihb =>
        intro s hp hz
        have h1 := ihb c (List.pairwise_cons.1 hp).2 (fun z hm => hz z (List.mem_cons_of_mem _ hm))
        have h2 := (List.pairwise_cons.1 hp).1 c (by simp)
        simp only [List.length_cons, Nat.add_mul, Nat.one_mul] at h1 ⊢
        omega
    have ha : (gcra t tau).Admits h e := by
      rw [C31_admits_iff, ih]
      intro a s b hl
      have h1 := hs.1
      rw [hl, List.pairwise_append] at h1
      have := sp b s h1.2.1 (fun z hz => hs.2.2 z (by rw [hl]; exact List.mem_append_right _ hz) e (by simp))
      omega
    rw [kept_snoc, if_pos ha, ih]

/-! ## The limits of a configuration -/

theorem perSecond_burst (rps : Nat) (hr : rps ≠ 0) :
    1000000000 / rps * (rps - 1) + 1000000000 / rps = rps * (1000000000 / rps) := by
  obtain ⟨n, rfl⟩ := Nat.exists_eq_succ_of_ne_zero hr
  simp only [Nat.succ_eq_add_one, Nat.add_sub_cancel, Nat.add_mul, Nat.one_mul]
  rw [Nat.mul_comm]

/-- The requests of a history that are admitted. -/
def admitted (rl : RateLimit) (h : List (Nat × Option Id)) : List (Nat × Option Id) :=
  kept (fun h r => (rl.check perSecond (rl.after perSecond h) r.1 r.2).1 = none) h

/-- **The total rate is kept**: whoever the clients are, of the requests that come within any window of time no more are admitted than one for every
`1s / rps` of it, and `rps` besides. -/
theorem C31_total_rate (rl : RateLimit) (rps : Nat) (ht : rl.total = some rps) (hr : rps ≠ 0) (h : List (Nat × Option Id))
    (hm : (h.map Prod.fst).Pairwise (· ≤ ·)) (x y : Nat) (hxy : x ≤ y) :
    ((admitted rl h).map Prod.fst).countP (within x y) * (1000000000 / rps) ≤ (y - x) + rps * (1000000000 / rps) := by
  have h1 : ((admitted rl h).map Prod.fst).countP (within x y) ≤ _ := (C31_total_is_a_cap perSecond rl rps ht h).countP_le
  have h2 := C31_at_most_the_rate (1000000000 / rps) (1000000000 / rps * (rps - 1)) (h.map Prod.fst) hm x y hxy
  rw [perSecond_burst rps hr] at h2
  exact Nat.le_trans (Nat.mul_le_mul_right _ h1) h2

open Classical in
/-- **Each account's rate is kept**: of the requests on one account (an override's identities, or an identity) likewise. -/
theorem C31_account_rate (rl : RateLimit) (a : Account) (hr : a.rps ≠ 0) (h : List (Nat × Option Id))
    (hm : (h.map Prod.fst).Pairwise (· ≤ ·)) (x y : Nat) (hxy : x ≤ y) :
    (((admitted rl h).filter (fun r => HasAccount rl r.2 a)).map Prod.fst).countP (within x y) * (1000000000 / a.rps) ≤
      (y - x) + a.rps * (1000000000 / a.rps) := by
  have e : (admitted rl h).filter (fun r => HasAccount rl r.2 a) = (admitted rl h).filter (fun r => accountOf rl r.2 = some a) := by
    apply List.filter_congr
    intro r _
    simp [hasAccount_iff]
  rw [e]
  have h1 := (C31_account_is_a_cap perSecond rl a h).countP_le (p := within x y)
  have hs : (onAccount perSecond rl h a).Pairwise (· ≤ ·) :=
    hm.sublist (((List.filter_sublist ..).trans (kept_sublist _ _)).map _)
  have h2 := C31_at_most_the_rate (1000000000 / a.rps) (1000000000 / a.rps * (a.rps - 1)) _ hs x y hxy
  rw [perSecond_burst a.rps hr] at h2
  exact Nat.le_trans (Nat.mul_le_mul_right _ h1) h2

/-- A limit of more than one request a nanosecond limits nothing. -/
theorem C31_limit_more_than_one_a_nanosecond (rps : Nat) (hr : 1000000000 < rps) (h : List Nat) (hm : h.Pairwise (· ≤ ·)) :
    kept (perSecond rps).Admits h = h := by
  unfold perSecond
  rw [Nat.div_eq_of_lt hr]
  exact C31_keeping_to_the_rate 0 _ h (by simpa using hm)

/-- Two requests a second: two are admitted at once, a third is not, and another half a second later is; in that half second three of five. -/
example : kept (perSecond 2).Admits [7, 7, 7, 500000006, 500000007] = [7, 7, 500000007] := by decide +kernel

/-- A limit of 3 in total and 2 for each identity; the refused request of the first client counts against the total. -/
example : (admitted { total := some 3, perIdentity := some 2 } [(0, none), (0, none), (0, none), (0, some (.dns ['a']))]).map Prod.fst = [0, 0] := by
  decide +kernel

end Verif.ServerPolicy
