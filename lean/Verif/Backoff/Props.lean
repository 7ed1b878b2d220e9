import Verif.Backoff.Model

/-!
# Property theorems: exponential backoff (C05)
-/
namespace Verif.Backoff

theorem pow2_pos (i : Nat) : 1 ≤ pow2 i := by
  unfold pow2
  have : 0 < 2 ^ i := Nat.two_pow_pos i
  exact Nat.le_min.2 ⟨this, by decide⟩

theorem pow2_mono {i j : Nat} (h : i ≤ j) : pow2 i ≤ pow2 j := by
  unfold pow2
  have h1 : 2 ^ i ≤ 2 ^ j := Nat.pow_le_pow_right (by decide) h
  exact Nat.le_min.2 ⟨Nat.le_trans (Nat.min_le_left _ _) h1, Nat.min_le_right _ _⟩

theorem base_le_max (b : Backoff) (i : Nat) : base b i ≤ b.max := Nat.min_le_right _ _

theorem base_ge_min (b : Backoff) (h : b.min ≤ b.max) (i : Nat) : b.min ≤ base b i := by
  unfold base
  refine Nat.le_min.2 ⟨?_, h⟩
  split
  · exact Nat.le_mul_of_pos_right _ (pow2_pos i)
  · exact h

theorem jitterOf_le (b : Backoff) (base : Nat) (u : Draw) : jitterOf b base u ≤ b.max - base := by
  unfold jitterOf
  split
  · split
    · exact Nat.zero_le _
    · exact Nat.min_le_right _ _
  · exact Nat.zero_le _

/-- C05 (validation). Exactly the configurations with `min ≤ max`, `max > 0` and a finite jitter
between 0 and 100 are accepted, and kept as given. -/
theorem C05_try_new_validates (min max : Nat) (j : Jitter) (b : Backoff) :
    tryNew min max j = some b ↔
      (b = { min, max, jitter := j } ∧ min ≤ max ∧ 0 < max ∧
        ∃ n d, j = .fin n d ∧ 0 ≤ n ∧ n ≤ 100 * (d : Int)) := by
  unfold tryNew
  split
  · simp only [reduceCtorEq, false_iff]; intro h; omega
  · split
    · simp only [reduceCtorEq, false_iff]; intro h; omega
    · cases j <;> simp [Jitter.neg, Jitter.gt100, Jitter.isFinite]
      · constructor
        · rintro ⟨h1, h2, h3⟩; exact ⟨h3.symm, by omega, by omega, _, _, ⟨rfl, rfl⟩, h1, h2⟩
        · rintro ⟨h1, _, _, n, d, ⟨rfl, rfl⟩, h4, h5⟩; exact ⟨h4, h5, h1.symm⟩

/-- C05 (bounds). Every delay of every accepted configuration is at least `min` and at most `max`, for
every iteration and every random draw. -/
theorem C05_delay_within_bounds (min max : Nat) (j : Jitter) (b : Backoff)
    (h : tryNew min max j = some b) (i : Nat) (u : Draw) : min ≤ delay b i u ∧ delay b i u ≤ max := by
  obtain ⟨rfl, h1, _, _⟩ := (C05_try_new_validates min max j b).1 h
  have hb := base_le_max { min, max, jitter := j } i
  have hg := base_ge_min { min, max, jitter := j } h1 i
  have hj := jitterOf_le { min, max, jitter := j } (base { min, max, jitter := j } i) u
  simp only at hb hg hj
  unfold delay
  omega

/-- C05 (jitter). The jitter added to a delay is at most the configured ratio of the unjittered delay. -/
theorem C05_jitter_at_most_ratio (b : Backoff) (n : Int) (d : Nat) (hj : b.jitter = .fin n d) (hd : 0 < d)
    (hn : 0 ≤ n) (i : Nat) (u : Draw) :
    (delay b i u - base b i) * d ≤ base b i * n.toNat := by
  have hx : delay b i u - base b i = jitterOf b (base b i) u := by unfold delay; omega
  rw [hx]
  generalize base b i = B
  unfold jitterOf
  rw [hj]
  simp only
  split
  · simp
  · have hq : 0 < u.den * d := Nat.mul_pos u.pos hd
    refine Nat.le_trans (Nat.mul_le_mul_right d (Nat.min_le_left _ _)) ?_
    have h1 : (B / 1000000000) * (u.num * n.toNat) / (u.den * d) * (u.den * d) ≤ (B / 1000000000) * (u.num * n.toNat) :=
      Nat.div_mul_le_self _ _
    have h2 : (B % 1000000000) * (u.num * n.toNat) / (u.den * d) * (u.den * d) ≤ (B % 1000000000) * (u.num * n.toNat) :=
      Nat.div_mul_le_self _ _
    generalize (B / 1000000000) * (u.num * n.toNat) / (u.den * d) = S at h1 ⊢
    generalize (B % 1000000000) * (u.num * n.toNat) / (u.den * d) = N at h2 ⊢
    have hB : (B / 1000000000) * 1000000000 + B % 1000000000 = B := by omega
    generalize B / 1000000000 = bs at *
    generalize B % 1000000000 = bn at *
    have hle : u.num * n.toNat ≤ u.den * n.toNat := Nat.mul_le_mul_right _ u.le
    have h3 : S * (u.den * d) ≤ bs * (u.den * n.toNat) := Nat.le_trans h1 (Nat.mul_le_mul_left _ hle)
    have h4 : N * (u.den * d) ≤ bn * (u.den * n.toNat) := Nat.le_trans h2 (Nat.mul_le_mul_left _ hle)
    have e3 : S * d ≤ bs * n.toNat := by
      have : u.den * (S * d) ≤ u.den * (bs * n.toNat) := by
        calc u.den * (S * d) = S * (u.den * d) := by ac_rfl
          _ ≤ bs * (u.den * n.toNat) := h3
          _ = u.den * (bs * n.toNat) := by ac_rfl
      exact Nat.le_of_mul_le_mul_left this u.pos
    have e4 : N * d ≤ bn * n.toNat := by
      have : u.den * (N * d) ≤ u.den * (bn * n.toNat) := by
        calc u.den * (N * d) = N * (u.den * d) := by ac_rfl
          _ ≤ bn * (u.den * n.toNat) := h4
          _ = u.den * (bn * n.toNat) := by ac_rfl
      exact Nat.le_of_mul_le_mul_left this u.pos
    calc (S * 1000000000 + N) * d = (S * d) * 1000000000 + N * d := by rw [Nat.add_mul, Nat.mul_right_comm]
      _ ≤ (bs * n.toNat) * 1000000000 + bn * n.toNat := Nat.add_le_add (Nat.mul_le_mul_right _ e3) e4
      _ = (bs * 1000000000 + bn) * n.toNat := by rw [Nat.add_mul, Nat.mul_right_comm]
      _ = B * n.toNat := by rw [hB]

/-- C05 (growth). Ignoring jitter, delays never decrease. -/
theorem C05_base_monotone (b : Backoff) (h : b.min ≤ b.max) (i j : Nat) (hij : i ≤ j) :
    base b i ≤ base b j := by
  unfold base
  have hp := pow2_mono hij
  have hm : b.min * pow2 i ≤ b.min * pow2 j := Nat.mul_le_mul_left _ hp
  refine Nat.le_min.2 ⟨?_, Nat.min_le_right _ _⟩
  split
  · split
    · exact Nat.le_trans (Nat.min_le_left _ _) hm
    · exact Nat.min_le_right _ _
  · rw [if_neg (by omega)]
    exact Nat.min_le_right _ _

/-- C05 (growth). Without jitter, each delay doubles the previous one until the maximum (or the 2^32
multiplier) is reached. -/
theorem C05_base_doubles (b : Backoff) (i : Nat) (hi : i < 32)
    (hmax : b.min * 2 ^ i ≤ b.max) (hd : b.max ≤ durationMax) : base b i = b.min * 2 ^ i := by
  have hp : pow2 i = 2 ^ i := by
    unfold pow2
    apply Nat.min_eq_left
    have : 2 ^ i ≤ 2 ^ 31 := Nat.pow_le_pow_right (by decide) (by omega)
    omega
  unfold base
  rw [hp, if_pos (by omega)]
  exact Nat.min_eq_left hmax

/-- C05 (growth). The unjittered delay reaches `max` exactly when `max` is at most `2^32 - 1` times
`min`; then it does so after at most 32 iterations. -/
theorem C05_base_reaches_max (b : Backoff) (hle : b.min ≤ b.max) (hd : b.max ≤ durationMax) :
    ((∃ i, base b i = b.max) ↔ b.max ≤ b.min * (2 ^ 32 - 1)) ∧
    (b.max ≤ b.min * (2 ^ 32 - 1) → ∀ i, 32 ≤ i → base b i = b.max) := by
  have hbig : ∀ i, 32 ≤ i → pow2 i = 2 ^ 32 - 1 := by
    intro i hi
    unfold pow2
    apply Nat.min_eq_right
    have : 2 ^ 32 ≤ 2 ^ i := Nat.pow_le_pow_right (by decide) hi
    omega
  have hreach : b.max ≤ b.min * (2 ^ 32 - 1) → ∀ i, 32 ≤ i → base b i = b.max := by
    intro h i hi
    unfold base
    rw [hbig i hi]
    split
    · exact Nat.min_eq_right h
    · exact Nat.min_self _
  refine ⟨⟨?_, fun h => ⟨32, hreach h 32 (Nat.le_refl _)⟩⟩, hreach⟩
  rintro ⟨i, hi⟩
  have hp : pow2 i ≤ 2 ^ 32 - 1 := Nat.min_le_right _ _
  have hm : b.min * pow2 i ≤ b.min * (2 ^ 32 - 1) := Nat.mul_le_mul_left _ hp
  unfold base at hi
  split at hi
  · have : b.max ≤ b.min * pow2 i := by rw [← hi]; exact Nat.min_le_left _ _
    omega
  · omega

/-- An accepted configuration that never reaches its maximum: 1 ns to 10 s. -/
theorem C05_max_may_be_unreachable :
    ∃ b, tryNew 1 10000000000 (.fin 0 1) = some b ∧ ∀ i, base b i < b.max := by
  refine ⟨_, rfl, ?_⟩
  intro i
  have h := (C05_base_reaches_max { min := 1, max := 10000000000, jitter := .fin 0 1 } (by decide) (by decide)).1
  have hle := base_le_max { min := 1, max := 10000000000, jitter := .fin 0 1 } i
  rcases Nat.lt_or_ge (base { min := 1, max := 10000000000, jitter := .fin 0 1 } i) 10000000000 with hlt | hge
  · exact hlt
  · have := h.1 ⟨i, Nat.le_antisymm hle hge⟩
    simp at this

/-! ### The stream -/

/-- Number of items yielded. -/
def items : List (Nat × Poll) → Nat
  | [] => 0
  | (_, .item) :: r => items r + 1
  | _ :: r => items r

/-- The instants of a log never go backwards and none is before `t`. -/
def Ordered : Nat → List (Nat × Draw) → Prop
  | _, [] => True
  | t, (n, _) :: r => t ≤ n ∧ Ordered n r

theorem poll_spec (b : Backoff) (hb : b.min ≤ b.max) (s : Stream) (c k now : Nat) (u : Draw)
    (hs : s.backoff = b) (hi : s.iterations = k) (hc : s.sleeping = true → c + b.min ≤ s.deadline)
    (hcn : c ≤ now) :
    (s.poll now u).1.backoff = b ∧
    ((s.poll now u).2 = .item → (s.poll now u).1.iterations = k + 1 ∧ c + b.min ≤ now ∧
      (s.poll now u).1.sleeping = false) ∧
    ((s.poll now u).2 ≠ .item → (s.poll now u).1.iterations = k ∧
      ((s.poll now u).1.sleeping = true → c + b.min ≤ (s.poll now u).1.deadline)) := by
  have hd : b.min ≤ delay b k u := Nat.le_trans (base_ge_min b hb k) (Nat.le_add_right _ _)
  unfold Stream.poll Stream.awaitSleep
  split
  · rename_i hsl
    split
    · simp [hs, hi]; have := hc hsl; omega
    · simp [hs, hi]; exact fun _ => hc hsl
  · split
    · simp [hs, hi]; intro h; exact hc h
    · simp only
      split
      · rename_i h; simp [hs, hi] at h ⊢; omega
      · rename_i h; simp [hs, hi] at h ⊢; omega

/-- C05 (stream). However and whenever the stream is polled, by the instant of any poll at most
`elapsed / min` delays have completed since the first poll: `k` items take at least `k * min`. -/
theorem C05_items_take_time (min max : Nat) (j : Jitter) (b : Backoff)
    (h : tryNew min max j = some b) (t0 : Nat) (polls : List (Nat × Draw)) (ho : Ordered t0 polls)
    (hne : polls ≠ []) :
    t0 + items (runPolls (stream b) polls).2 * min ≤ (polls.getLast hne).1 := by
  obtain ⟨rfl, h1, _, _⟩ := (C05_try_new_validates min max j b).1 h
  -- `c`: the instant up to which completed delays are accounted for
  have key : ∀ (polls : List (Nat × Draw)) (s : Stream) (c t k : Nat), s.backoff = { min, max, jitter := j } →
      s.iterations = k → (s.sleeping = true → c + min ≤ s.deadline) → c ≤ t → Ordered t polls →
      ∀ hne : polls ≠ [], c + items (runPolls s polls).2 * min ≤ (polls.getLast hne).1 := by
    intro polls
    induction polls with
    | nil => intro s c t k _ _ _ _ _ hne; exact absurd rfl hne
    | cons p polls ih =>
      obtain ⟨now, u⟩ := p
      intro s c t k hs hi hc hct ho hne
      obtain ⟨htn, ho'⟩ := ho
      have hcn : c ≤ now := Nat.le_trans hct htn
      obtain ⟨p1, p2, p3⟩ := poll_spec { min, max, jitter := j } h1 s c k now u hs hi hc hcn
      simp only [runPolls]
      cases hout : (s.poll now u).2 with
      | item =>
        obtain ⟨q1, q2, q3⟩ := p2 hout
        cases polls with
        | nil => simp [runPolls, items]; exact q2
        | cons p' polls' =>
          have := ih (s.poll now u).1 (c + min) now (k + 1) p1 q1 (by rw [q3]; simp) q2 ho' (by simp)
          simp only [items, Nat.add_mul, Nat.one_mul, List.getLast_cons (List.cons_ne_nil _ _)] at this ⊢
          omega
      | pending =>
        obtain ⟨q1, q2⟩ := p3 (by rw [hout]; simp)
        cases polls with
        | nil => simp [runPolls, items]; exact hcn
        | cons p' polls' =>
          have := ih (s.poll now u).1 c now k p1 q1 q2 hcn ho' (by simp)
          simp only [items, List.getLast_cons (List.cons_ne_nil _ _)] at this ⊢
          exact this
      | ended =>
        obtain ⟨q1, q2⟩ := p3 (by rw [hout]; simp)
        cases polls with
        | nil => simp [runPolls, items]; exact hcn
        | cons p' polls' =>
          have := ih (s.poll now u).1 c now k p1 q1 q2 hcn ho' (by simp)
          simp only [items, List.getLast_cons (List.cons_ne_nil _ _)] at this ⊢
          exact this
  exact key polls _ t0 t0 0 rfl rfl (by simp [stream]) (Nat.le_refl _) ho hne

/-- C05 (stream). A delay never outlasts `max`: whatever happened before, if a poll at `t` leaves the
stream waiting, any later poll at `t + max` or after completes the delay. -/
theorem C05_wait_at_most_max (min max : Nat) (j : Jitter) (b : Backoff) (h : tryNew min max j = some b)
    (t0 : Nat) (polls : List (Nat × Draw)) (ho : Ordered t0 polls) (hne : polls ≠ [])
    (now : Nat) (hnow : (polls.getLast hne).1 + max ≤ now) (u : Draw)
    (hsl : (runPolls (stream b) polls).1.sleeping = true) :
    ((runPolls (stream b) polls).1.poll now u).2 = .item := by
  have hbound := C05_delay_within_bounds min max j b h
  have key : ∀ (polls : List (Nat × Draw)) (s : Stream) (t : Nat), s.backoff = b →
      (s.sleeping = true → s.deadline ≤ t + max) → Ordered t polls →
      (runPolls s polls).1.sleeping = true → ∀ hne : polls ≠ [],
      (runPolls s polls).1.deadline ≤ (polls.getLast hne).1 + max := by
    intro polls
    induction polls with
    | nil => intro s t _ _ _ _ hne; exact absurd rfl hne
    | cons p polls ih =>
      obtain ⟨n, v⟩ := p
      intro s t hs hd ho hsl hne
      obtain ⟨htn, ho'⟩ := ho
      have hstep : (s.poll n v).1.backoff = b ∧
          ((s.poll n v).1.sleeping = true → (s.poll n v).1.deadline ≤ n + max) := by
        have hb := (hbound s.iterations v).2
        unfold Stream.poll Stream.awaitSleep
        split
        · rename_i hsl
          split
          · simp [hs]
          · simp [hs]; intro _; have := hd hsl; omega
        · split
          · simp [hs]; intro h; rename_i hns _; exact absurd h hns
          · simp only
            split
            · simp [hs]
            · simp [hs]; omega
      cases polls with
      | nil => simp only [runPolls, List.getLast_singleton] at hsl ⊢; exact hstep.2 hsl
      | cons p' polls' =>
        simp only [runPolls, List.getLast_cons (List.cons_ne_nil _ _)] at hsl ⊢
        exact ih (s.poll n v).1 n hstep.1 hstep.2 ho' hsl (by simp)
  have := key polls (stream b) t0 rfl (by simp [stream]) ho hsl hne
  simp only [Stream.poll, hsl, if_true, Stream.awaitSleep]
  rw [if_pos (by omega)]

theorem runPolls_append (s : Stream) (a b : List (Nat × Draw)) :
    runPolls s (a ++ b) = ((runPolls (runPolls s a).1 b).1, (runPolls s a).2 ++ (runPolls (runPolls s a).1 b).2) := by
  induction a generalizing s with
  | nil => rfl
  | cons p a ih => simp only [List.cons_append, runPolls, ih]

/-- The stream counts its items, and sleeps exactly if it was last not ready. -/
theorem counts (b : Backoff) (polls : List (Nat × Draw)) : ∀ (s : Stream), s.backoff = b →
    (runPolls s polls).1.backoff = b ∧ (runPolls s polls).1.iterations = s.iterations + items (runPolls s polls).2 ∧
    ((runPolls s polls).2.getLast?.map (·.2) ≠ some .pending → polls ≠ [] → (runPolls s polls).1.sleeping = false) := by
  induction polls with
  | nil => intro s hs; exact ⟨hs, rfl, fun _ h => absurd rfl h⟩
  | cons p polls ih =>
    obtain ⟨now, u⟩ := p
    intro s hs
    have h123 : (s.poll now u).1.backoff = b ∧
        (s.poll now u).1.iterations = s.iterations + (if (s.poll now u).2 = .item then 1 else 0) ∧
        ((s.poll now u).2 ≠ .pending → (s.poll now u).1.sleeping = false) := by
      unfold Stream.poll
      split
      · unfold Stream.awaitSleep
        split <;> simp [hs]
      · rename_i hn
        split
        · simp [hs, hn]
        · dsimp only
          unfold Stream.awaitSleep
          split <;> simp [hs]
    obtain ⟨h1, h2, h3⟩ := h123
    obtain ⟨a, c, d⟩ := ih _ h1
    refine ⟨a, ?_, ?_⟩
    · simp only [runPolls]
      rw [c, h2]
      cases (s.poll now u).2 <;> simp [items] <;> omega
    · intro hl _
      cases polls with
      | nil => simp only [runPolls, List.getLast?_singleton, Option.map_some] at hl ⊢; exact h3 (fun e => hl (by rw [e]))
      | cons q qs =>
        refine d ?_ (by simp)
        simp only [runPolls, List.getLast?_cons_cons] at hl ⊢
        exact hl

/-- While it sleeps, it is not ready until its deadline. -/
theorem sleeps (polls : List (Nat × Draw)) : ∀ (s : Stream), s.sleeping = true →
    (∀ r ∈ (runPolls s polls).2, r.2 = .pending) → (runPolls s polls).1 = s := by
  induction polls with
  | nil => intro s _ _; rfl
  | cons p polls ih =>
    obtain ⟨now, u⟩ := p
    intro s hs h
    have h0 := h (now, (s.poll now u).2) (by simp [runPolls])
    have e : (s.poll now u).1 = s := by
      simp only [Stream.poll, hs, if_true, Stream.awaitSleep] at h0 ⊢
      split at h0
      · simp at h0
      · rename_i hn
        rw [if_neg hn]
    simp only [runPolls]
    rw [e]
    refine ih s hs fun r hr => h r ?_
    simp only [runPolls, e]
    exact List.mem_cons_of_mem _ hr

/-- C05 (stream). The wait that follows `k` items lasts exactly as long as the `k`-th delay: if the stream had given `k` items and was not
waiting, and was then polled at `t` and perhaps some more times without being ready, then a poll at `now` gives an item exactly if the delay has
passed since `t`; until then it is pending. -/
theorem C05_kth_wait (b : Backoff) (pre mid : List (Nat × Draw)) (k t now : Nat) (u v : Draw)
    (hpre : (runPolls (stream b) pre).2.getLast?.map (·.2) ≠ some .pending)
    (hk : items (runPolls (stream b) pre).2 = k) (hlt : k < 2 ^ 32 - 1)
    (hmid : ∀ r ∈ (runPolls (stream b) (pre ++ (t, u) :: mid)).2.drop pre.length, r.2 = .pending) :
    (runPolls (stream b) (pre ++ (t, u) :: mid ++ [(now, v)])).2.getLast? =
      some (now, if t + delay b k u ≤ now then .item else .pending) := by
  obtain ⟨c1, c2, c3⟩ := counts b pre (stream b) rfl
  have hlen : ∀ (s : Stream) (l : List (Nat × Draw)), (runPolls s l).2.length = l.length := by
    intro s l
    induction l generalizing s with
    | nil => rfl
    | cons p l ih => obtain ⟨n, w⟩ := p; simp [runPolls, ih]
  have c3' : (runPolls (stream b) pre).1.sleeping = false := by
    by_cases hp : pre = []
    · subst hp; rfl
    · exact c3 hpre hp
  have c2' : (runPolls (stream b) pre).1.iterations = k := by
    rw [c2, hk]; exact Nat.zero_add k
  rw [runPolls_append] at hmid
  simp only at hmid
  rw [List.drop_left' (hlen _ _)] at hmid
  rw [runPolls_append, runPolls_append]
  generalize (runPolls (stream b) pre).1 = s at *
  have hdel : s.poll t u = ({ s with duration := delay b k u, deadline := t + delay b k u, sleeping := true } : Stream).awaitSleep t := by
    unfold Stream.poll
    rw [c3', c2']
    simp only [Bool.false_eq_true, if_false]
    rw [if_neg (by omega), c1]
  have h0 := hmid (t, (s.poll t u).2) (by simp [runPolls])
  have hs1 : (s.poll t u).1 = { s with duration := delay b k u, deadline := t + delay b k u, sleeping := true } := by
    rw [hdel] at h0 ⊢
    unfold Stream.awaitSleep at h0 ⊢
    split at h0
    · simp at h0
    · rename_i hn
      rw [if_neg hn]
  have hs2 : (runPolls s ((t, u) :: mid)).1 = { s with duration := delay b k u, deadline := t + delay b k u, sleeping := true } := by
    simp only [runPolls, hs1]
    apply sleeps _ _ rfl
    intro r hr
    apply hmid r
    simp only [runPolls, hs1]
    exact List.mem_cons_of_mem _ hr
  rw [hs2]
  simp only [runPolls, Stream.poll, if_true, Stream.awaitSleep, List.getLast?_append, List.getLast?_singleton, Option.some_or]
  split <;> rfl

/-- C05 (stream). So waits double: after `k` items, nothing comes before `min * 2 ^ k` has passed, or `max`, if that is less; and with
jitter of at most `n / d`, it has come once that much more has. -/
theorem C05_waits_double (b : Backoff) (n : Int) (d : Nat) (hj : b.jitter = .fin n d) (hd : 0 < d) (hn : 0 ≤ n)
    (hM : b.max ≤ durationMax) (pre mid : List (Nat × Draw)) (k t now : Nat) (u v : Draw)
    (hpre : (runPolls (stream b) pre).2.getLast?.map (·.2) ≠ some .pending)
    (hk : items (runPolls (stream b) pre).2 = k) (hlt : k < 32) (hmax : b.min * 2 ^ k ≤ b.max)
    (hmid : ∀ r ∈ (runPolls (stream b) (pre ++ (t, u) :: mid)).2.drop pre.length, r.2 = .pending) :
    (now < t + b.min * 2 ^ k → (runPolls (stream b) (pre ++ (t, u) :: mid ++ [(now, v)])).2.getLast? = some (now, .pending)) ∧
    ((t + b.min * 2 ^ k) * d + b.min * 2 ^ k * n.toNat ≤ now * d →
      (runPolls (stream b) (pre ++ (t, u) :: mid ++ [(now, v)])).2.getLast? = some (now, .item)) := by
  rw [C05_kth_wait b pre mid k t now u v hpre hk (by omega) hmid]
  have hb := C05_base_doubles b k hlt hmax hM
  have hr := C05_jitter_at_most_ratio b n d hj hd hn k u
  have hge : base b k ≤ delay b k u := Nat.le_add_right _ _
  rw [hb] at hr hge
  constructor
  · intro h
    rw [if_neg (by omega)]
  · intro h
    rw [if_pos]
    have e : delay b k u = b.min * 2 ^ k + (delay b k u - b.min * 2 ^ k) := by omega
    rw [e]
    refine Nat.le_of_mul_le_mul_right ?_ hd
    rw [← Nat.add_assoc, Nat.add_mul]
    omega

example : ∃ b, tryNew 100 1000 (.fin 0 1) = some b ∧
    (runPolls (stream b) [(0, ⟨0, 1, by decide, by decide⟩), (100, ⟨0, 1, by decide, by decide⟩), (100, ⟨0, 1, by decide, by decide⟩),
      (299, ⟨0, 1, by decide, by decide⟩), (300, ⟨0, 1, by decide, by decide⟩), (300, ⟨0, 1, by decide, by decide⟩)]).2 =
    [(0, .pending), (100, .item), (100, .pending), (299, .pending), (300, .item), (300, .pending)] := ⟨_, rfl, by decide +kernel⟩

example : ∃ b, tryNew 100 1000 (.fin 1 2) = some b ∧ base b 0 = 100 ∧ base b 3 = 800 ∧ base b 4 = 1000 ∧
    delay b 3 ⟨1, 2, by decide, by decide⟩ = 1000 := ⟨_, rfl, by decide, by decide, by decide, by decide⟩

end Verif.Backoff
