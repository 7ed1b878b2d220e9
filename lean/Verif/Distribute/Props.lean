import Verif.Distribute.Spec

/-!
# C12 — distributions

First-available distribution sends to the earliest listed ready backend; random distribution only ever
sends to a ready backend with positive weight from the list, never reports ready when no such backend
is ready, and considers every such backend before giving up; empty distributions are never ready.
-/

namespace Verif.Distribute

open Spec

theorem total_spec (ws : List Nat) (acc : Nat) :
    (acc ≤ u32Max → acc + ws.sum ≤ u32Max → total ws acc = .ok (acc + ws.sum)) ∧
    (acc ≤ u32Max → u32Max < acc + ws.sum → total ws acc = .error .overflow) := by
  induction ws generalizing acc with
  | nil => simp [total]
  | cons w ws ih =>
    have e : acc + (w :: ws).sum = acc + w + ws.sum := by rw [List.sum_cons, Nat.add_assoc]
    rw [e]
    simp only [total]
    refine ⟨fun h1 h2 => ?_, fun h1 h2 => ?_⟩
    · rw [if_neg (by omega)]; exact (ih _).1 (by omega) h2
    · by_cases h : acc + w > u32Max
      · rw [if_pos h]
      · rw [if_neg h]; exact (ih _).2 (by omega) h2

theorem validate_ok (ws : List Nat) : validate ws = .ok () ↔ 0 < ws.sum ∧ ws.sum ≤ u32Max := by
  cases ws with
  | nil => simp [validate]
  | cons w ws =>
    have hs := total_spec (w :: ws) 0
    simp only [validate]
    generalize (w :: ws).sum = s at *
    rw [Nat.zero_add] at hs
    rcases Nat.lt_or_ge u32Max s with h | h
    · rw [hs.2 (by simp) h]; simp; omega
    · rw [hs.1 (by simp) h]
      cases s with
      | zero => simp
      | succ n => simp [h]

/-- **C12.** `random_available` rejects exactly the lists of two or more backends whose weights are all
zero or add up to more than a `u32`; shorter lists become first-available distributions. -/
theorem C12_construction (keys : List (Nat × Nat)) :
    randomAvailable keys =
      if keys.length < 2 then .ok (.first (keys.map Prod.fst))
      else if (keys.map Prod.snd).sum = 0 then .error .insufficientNonZero
      else if 4294967295 < (keys.map Prod.snd).sum then .error .overflow
      else .ok (.random keys) := by
  have hu : u32Max = 4294967295 := rfl
  rw [← hu]
  unfold randomAvailable
  by_cases hl : keys.length < 2
  · simp [hl]
  · rw [if_neg hl, if_neg hl]
    have hne : ∃ w ws, keys.map Prod.snd = w :: ws := by
      cases keys with
      | nil => simp at hl
      | cons k ks => exact ⟨_, _, rfl⟩
    obtain ⟨w, ws, e⟩ := hne
    rw [e]
    have hs := total_spec (w :: ws) 0
    simp only [validate]
    generalize (w :: ws).sum = s at *
    rw [Nat.zero_add] at hs
    rcases Nat.lt_or_ge u32Max s with h | h
    · rw [hs.2 (by simp) h, if_neg (by omega), if_pos h]
    · rw [hs.1 (by simp) h]
      cases s with
      | zero => simp
      | succ n => rw [if_neg (by omega), if_neg (by omega)]; rfl

/-- Every distribution the constructors give is valid in the sense of the specification. -/
theorem valid_of_random (keys : List (Nat × Nat)) (d : Dist) (h : randomAvailable keys = .ok d) : Valid d := by
  rw [C12_construction] at h
  split at h
  · cases h; trivial
  · split at h
    · cases h
    · split at h
      · cases h
      · cases h; simp only [Valid]; omega

theorem valid_of_first (keys : List Nat) : Valid (firstAvailable keys) := by
  unfold firstAvailable; split <;> trivial

/-! ### Sampling -/

theorem pickIndex_spec (ws : List Nat) (x : Nat) (h : x < ws.sum) : ∃ w, ws[pickIndex ws x]? = some w ∧ 0 < w := by
  induction ws generalizing x with
  | nil => simp at h
  | cons w ws ih =>
    simp only [pickIndex]
    rw [List.sum_cons] at h
    by_cases hx : x < w
    · rw [if_pos hx]; exact ⟨w, rfl, by omega⟩
    · rw [if_neg hx]; simp only [List.getElem?_cons_succ]; exact ih _ (by omega)

theorem countP_range_shift (p : Nat → Bool) (a b : Nat) :
    (List.range (a + b)).countP p = (List.range a).countP p + (List.range b).countP (fun x => p (a + x)) := by
  rw [List.range_add, List.countP_append, List.countP_map]
  rfl

/-- **C12.** The choice is proportional to the weights: of the `total` possible draws exactly `w` choose
a backend of weight `w`. -/
theorem C12_choice_is_proportional_to_weight (ws : List Nat) (i w : Nat) (h : ws[i]? = some w) :
    (List.range ws.sum).countP (fun x => sample ws x == i) = w := by
  have hs : (List.range ws.sum).countP (fun x => sample ws x == i) = (List.range ws.sum).countP (fun x => pickIndex ws x == i) := by
    apply List.countP_congr
    intro x hx
    rw [List.mem_range] at hx
    simp [sample, Nat.mod_eq_of_lt hx]
  rw [hs]
  clear hs
  induction ws generalizing i with
  | nil => simp at h
  | cons v ws ih =>
    rw [List.sum_cons, countP_range_shift]
    have h1 : ∀ x, x < v → pickIndex (v :: ws) x = 0 := by intro x hx; simp [pickIndex, hx]
    have h2 : ∀ x, pickIndex (v :: ws) (v + x) = pickIndex ws x + 1 := by
      intro x; simp only [pickIndex]; rw [if_neg (by omega)]; rw [Nat.add_sub_cancel_left]
    cases i with
    | zero =>
      simp at h; subst h
      have e1 : (List.range v).countP (fun x => pickIndex (v :: ws) x == 0) = v := by
        have : (List.range v).countP (fun x => pickIndex (v :: ws) x == 0) = (List.range v).length := by
          rw [List.countP_eq_length]
          intro x hx; rw [List.mem_range] at hx; simp [h1 x hx]
        simpa using this
      have e2 : (List.range ws.sum).countP (fun x => pickIndex (v :: ws) (v + x) == 0) = 0 := by
        rw [List.countP_eq_zero]; intro x _; simp [h2]
      rw [e1, e2]; rfl
    | succ i =>
      simp only [List.getElem?_cons_succ] at h
      have e1 : (List.range v).countP (fun x => pickIndex (v :: ws) x == i + 1) = 0 := by
        rw [List.countP_eq_zero]; intro x hx; rw [List.mem_range] at hx; simp [h1 x hx]
      have e2 : (List.range ws.sum).countP (fun x => pickIndex (v :: ws) (v + x) == i + 1) = (List.range ws.sum).countP (fun x => pickIndex ws x == i) := by
        apply List.countP_congr; intro x _; simp [h2]
      rw [e1, e2, ih i h]; simp

example : (List.range 6).countP (fun x => sample [1, 0, 3, 2] x == 2) = 3 := by decide +kernel

/-! ### The random loop -/

/-- How many weights are positive. -/
def positives (ws : List Nat) : Nat := (ws.map (fun w => if 0 < w then 1 else 0)).sum

theorem positives_set (ws : List Nat) (i w : Nat) (h : ws[i]? = some w) (hw : 0 < w) : positives (ws.set i 0) + 1 = positives ws := by
  have := sum_set (fun w => if 0 < w then 1 else 0) ws i w 0 h
  simp only [hw, if_true, Nat.lt_irrefl, if_false] at this
  unfold positives; omega

theorem positives_pos (ws : List Nat) (h : 0 < ws.sum) : 0 < positives ws := by
  induction ws with
  | nil => simp at h
  | cons w ws ih =>
    unfold positives at *
    simp only [List.map_cons, List.sum_cons] at *
    by_cases hw : 0 < w
    · simp [hw]; omega
    · have := ih (by omega); omega

theorem positives_le (ws : List Nat) : positives ws ≤ ws.length := by
  induction ws with
  | nil => simp [positives]
  | cons w ws ih =>
    unfold positives at *
    simp only [List.map_cons, List.sum_cons, List.length_cons]
    split <;> omega

theorem sum_zero_of (ws : List Nat) (h : ws.sum = 0) (i w : Nat) (hi : ws[i]? = some w) : w = 0 := by
  induction ws generalizing i with
  | nil => simp at hi
  | cons v ws ih =>
    rw [List.sum_cons] at h
    cases i with
    | zero => simp at hi; omega
    | succ i => simp at hi; exact ih (by omega) i hi

/-- The weights left in the loop: the original ones, with some pending backends zeroed. -/
def Left (env : Env) (ws0 ws : List Nat) : Prop :=
  ws.length = ws0.length ∧ ∀ i w, ws0[i]? = some w → ws[i]? = some w ∨ (ws[i]? = some 0 ∧ env.answer i = .pending)

theorem pollRandom_spec (env : Env) (ws0 : List Nat) (fuel n : Nat) (ws : List Nat) (hl : Left env ws0 ws) (hs : 0 < ws.sum)
    (hf : positives ws ≤ fuel) :
    (∃ i w, pollRandom env ws0.length fuel n ws = (some i, .ready) ∧ ws0[i]? = some w ∧ 0 < w ∧ env.answer i = .ready) ∨
    (∃ i w, pollRandom env ws0.length fuel n ws = (none, .failed) ∧ ws0[i]? = some w ∧ 0 < w ∧ env.answer i = .failed) ∨
    (pollRandom env ws0.length fuel n ws = (none, .pending) ∧ ∀ i w, ws0[i]? = some w → 0 < w → env.answer i = .pending) := by
  induction fuel generalizing n ws with
  | zero => have := positives_pos ws hs; omega
  | succ fuel ih =>
    obtain ⟨w, hw, hpos⟩ := pickIndex_spec ws (env.draw n % ws.sum) (Nat.mod_lt _ hs)
    have hidx : sample ws (env.draw n) = pickIndex ws (env.draw n % ws.sum) := rfl
    rw [← hidx] at hw
    simp only [pollRandom]
    generalize sample ws (env.draw n) = idx at *
    have hlt : idx < ws0.length := by rw [← hl.1]; exact lt_of_getElem?_some hw
    have hw0 : ws0[idx]? = some w := by
      obtain ⟨v, hv⟩ : ∃ v, ws0[idx]? = some v := ⟨ws0[idx], by simp⟩
      rcases hl.2 idx v hv with h | ⟨h, -⟩
      · rw [hw] at h; cases h; exact hv
      · rw [hw] at h; cases h; omega
    rw [if_pos hlt]
    cases ha : env.answer idx with
    | ready => exact .inl ⟨idx, w, rfl, hw0, hpos, ha⟩
    | failed => exact .inr (.inl ⟨idx, w, rfl, hw0, hpos, ha⟩)
    | pending =>
      have hl' : Left env ws0 (ws.set idx 0) := by
        refine ⟨by simp [hl.1], ?_⟩
        intro i v hv
        by_cases hi : i = idx
        · subst hi; right; exact ⟨by rw [List.getElem?_set_self (lt_of_getElem?_some hw)], ha⟩
        · rw [List.getElem?_set_ne (Ne.symm hi)]; exact hl.2 i v hv
      simp only [disable]
      by_cases hz : (ws.set idx 0).sum = 0
      · rw [if_pos hz]
        refine .inr (.inr ⟨rfl, ?_⟩)
        intro i v hv hvp
        rcases hl'.2 i v hv with h | h
        · have := sum_zero_of _ hz i v h; omega
        · exact h.2
      · rw [if_neg hz]
        exact ih (n + 1) (ws.set idx 0) hl' (by omega) (by have := positives_set ws idx w hw hpos; omega)

theorem pollFirst_spec (env : Env) (keys : List Nat) (n : Nat) :
    (∃ i, pollFirst env n keys = (some i, .ready) ∧ n ≤ i ∧ i < n + keys.length ∧ env.answer i = .ready ∧ ∀ j, n ≤ j → j < i → env.answer j = .pending) ∨
    (∃ i, pollFirst env n keys = (none, .failed) ∧ n ≤ i ∧ i < n + keys.length ∧ env.answer i = .failed) ∨
    (pollFirst env n keys = (none, .pending) ∧ ∀ j, n ≤ j → j < n + keys.length → env.answer j = .pending) := by
  induction keys generalizing n with
  | nil => exact .inr (.inr ⟨rfl, by simp; omega⟩)
  | cons k ks ih =>
    simp only [pollFirst, List.length_cons]
    cases ha : env.answer n with
    | ready => exact .inl ⟨n, rfl, by omega, by omega, ha, by omega⟩
    | failed => exact .inr (.inl ⟨n, rfl, by omega, by omega, ha⟩)
    | pending =>
      have step : ∀ j, n ≤ j → j = n ∨ n + 1 ≤ j := by omega
      rcases ih (n + 1) with ⟨i, h1, h2, h3, h4, h5⟩ | ⟨i, h1, h2, h3, h4⟩ | ⟨h1, h2⟩
      · refine .inl ⟨i, h1, by omega, by omega, h4, ?_⟩
        intro j hj hji
        rcases step j hj with rfl | h
        · exact ha
        · exact h5 j h hji
      · exact .inr (.inl ⟨i, h1, by omega, by omega, h4⟩)
      · refine .inr (.inr ⟨h1, ?_⟩)
        intro j hj hjl
        rcases step j hj with rfl | h
        · exact ha
        · exact h2 j h (by omega)

/-- What a readiness check does when nothing is selected yet. -/
theorem poll_spec (d : Dist) (hv : Valid d) (env : Env) :
    (∃ i, World.poll { dist := d } d.size env = ({ dist := d, readyIdx := some i }, .ready) ∧ MayChoose d env.answer i) ∨
    (∃ i, World.poll { dist := d } d.size env = ({ dist := d }, .failed) ∧ Eligible d i ∧ env.answer i = .failed) ∨
    (World.poll { dist := d } d.size env = ({ dist := d }, .pending) ∧ ∀ i, Eligible d i → env.answer i = .pending) := by
  cases d with
  | empty => exact .inr (.inr ⟨rfl, by intro i h; exact h.elim⟩)
  | first keys =>
    simp only [World.poll]
    rcases pollFirst_spec env keys 0 with ⟨i, h1, h2, h3, h4, h5⟩ | ⟨i, h1, h2, h3, h4⟩ | ⟨h1, h2⟩
    · exact .inl ⟨i, by rw [h1], by simpa [Eligible] using h3, h4, fun j hj => h5 j (Nat.zero_le _) hj⟩
    · exact .inr (.inl ⟨i, by rw [h1], by simpa [Eligible] using h3, h4⟩)
    · exact .inr (.inr ⟨by rw [h1], fun i hi => h2 i (Nat.zero_le _) (by simpa [Eligible] using hi)⟩)
  | random keys =>
    obtain ⟨hv1, hv2, hv3⟩ := hv
    simp only [World.poll]
    rw [(validate_ok _).2 ⟨hv2, hv3⟩]
    have hel : ∀ i w, (keys.map Prod.snd)[i]? = some w → 0 < w → Eligible (.random keys) i := by
      intro i w h hw
      rw [List.getElem?_map] at h
      cases hk : keys[i]? with
      | none => rw [hk] at h; simp at h
      | some kw => rw [hk] at h; obtain ⟨k, w'⟩ := kw; simp at h; subst h; exact ⟨k, w', hk, hw⟩
    have hlen : keys.length = (keys.map Prod.snd).length := by simp
    have hsz : Dist.size (.random keys) = (keys.map Prod.snd).length := by simp [Dist.size]
    simp only [hsz, hlen]
    rcases pollRandom_spec env (keys.map Prod.snd) (keys.map Prod.snd).length 0 (keys.map Prod.snd)
        ⟨rfl, fun i w h => .inl h⟩ hv2 (positives_le _) with ⟨i, w, h1, h2, h3, h4⟩ | ⟨i, w, h1, h2, h3, h4⟩ | ⟨h1, h2⟩
    · exact .inl ⟨i, by rw [h1], hel i w h2 h3, h4, trivial⟩
    · exact .inr (.inl ⟨i, by rw [h1], hel i w h2 h3, h4⟩)
    · refine .inr (.inr ⟨by rw [h1], ?_⟩)
      rintro i ⟨k, w, hk, hw⟩
      exact h2 i w (by rw [List.getElem?_map, hk]; rfl) hw

/-! ### Histories -/

/-- The operations that consume or forget a selection. -/
def Op.consumes : Op → Bool
  | .poll _ => false
  | _ => true

theorem after_snoc (d : Dist) (ops : List Op) (op : Op) : after d (ops ++ [op]) = ((after d ops).step op).1 := by
  simp [after, List.foldl_append]

theorem eligible_key (d : Dist) (i : Nat) (h : Eligible d i) : ∃ k, d.key i = some k := by
  cases d with
  | empty => exact h.elim
  | first keys => exact ⟨keys[i]'h, List.getElem?_eq_getElem h⟩
  | random keys => obtain ⟨k, w, h, -⟩ := h; exact ⟨k, by simp [Dist.key, h]⟩

/-- What the selection stands for. -/
def SelInv (d : Dist) (ops : List Op) : Prop :=
  (after d ops).dist = d ∧
  ∀ i, (after d ops).readyIdx = some i → ∃ pre env post, ops = pre ++ .poll env :: post ∧
    (∀ op ∈ post, op.consumes = false) ∧ (after d pre).readyIdx = none ∧ MayChoose d env.answer i

theorem poll_selected (d : Dist) (i : Nat) (hd : d ≠ .empty) (fuel : Nat) (env : Env) :
    World.poll { dist := d, readyIdx := some i } fuel env = ({ dist := d, readyIdx := some i }, .ready) := by
  cases d <;> simp_all [World.poll]

theorem call_fields (w : World) : w.call.1.dist = w.dist ∧ (w.call.1.readyIdx = none ∨ w.dist = .empty) := by
  unfold World.call
  split
  · rename_i h; exact ⟨rfl, .inr h⟩
  · split
    · rename_i h; exact ⟨rfl, .inl h⟩
    · split <;> exact ⟨rfl, .inl rfl⟩

theorem selInv (d : Dist) (hv : Valid d) (ops : List Op) : SelInv d ops := by
  induction ops using snoc_induction with
  | nil => exact ⟨rfl, by simp [after]⟩
  | snoc ops op ih =>
    obtain ⟨h1, h2⟩ := ih
    unfold SelInv
    rw [after_snoc]
    generalize hw : after d ops = w at h1 h2
    obtain ⟨wd, wr⟩ := w
    simp only at h1 h2; subst h1
    have keep : ∀ env i, wr = some i → ∃ pre env' post, ops ++ [Op.poll env] = pre ++ .poll env' :: post ∧
        (∀ op ∈ post, op.consumes = false) ∧ (after wd pre).readyIdx = none ∧ MayChoose wd env'.answer i := by
      intro env i hi
      obtain ⟨pre, env', post, e, hp, hn, hm⟩ := h2 i hi
      refine ⟨pre, env', post ++ [.poll env], by simp [e], ?_, hn, hm⟩
      intro o ho
      rcases List.mem_append.1 ho with ho | ho
      · exact hp o ho
      · simp at ho; subst ho; rfl
    cases op with
    | clone => exact ⟨rfl, by simp [World.step]⟩
    | call =>
      obtain ⟨c1, c2⟩ := call_fields ⟨wd, wr⟩
      refine ⟨c1, ?_⟩
      intro i hi
      simp only [World.step] at hi
      rcases c2 with c2 | c2
      · rw [c2] at hi; cases hi
      · simp only at c2
        subst c2
        simp only [World.call] at hi
        obtain ⟨pre, env, post, e, hp, hn, hm⟩ := h2 i hi
        exact hm.1.elim
    | poll env =>
      simp only [World.step]
      cases wr with
      | some i =>
        obtain ⟨_, _, _, -, -, -, hm⟩ := h2 i rfl
        have hne : wd ≠ .empty := by rintro rfl; exact hm.1.elim
        rw [poll_selected wd i hne]
        exact ⟨rfl, fun j hj => keep env j hj⟩
      | none =>
        rcases poll_spec wd hv env with ⟨i, h, hm⟩ | ⟨i, h, -⟩ | ⟨h, -⟩
        · rw [h]
          refine ⟨rfl, ?_⟩
          intro j hj
          simp at hj; subst hj
          exact ⟨ops, env, [], rfl, by simp, by rw [hw], hm⟩
        · rw [h]; exact ⟨rfl, by simp⟩
        · rw [h]; exact ⟨rfl, by simp⟩

/-- **C12.** Every request goes to a backend that the distribution may choose: some readiness check
since the last request (with no selection standing) found it ready; it has a positive weight if the
distribution is random, and every earlier backend was pending if it is first-available. -/
theorem C12_request_goes_to_a_ready_backend (d : Dist) (hv : Valid d) (ops : List Op) (i k : Nat)
    (h : answer d ops .call = .sent i k) :
    d.key i = some k ∧ ∃ pre env post, ops = pre ++ .poll env :: post ∧ (∀ op ∈ post, op.consumes = false) ∧
      MayChoose d env.answer i := by
  obtain ⟨h1, h2⟩ := selInv d hv ops
  simp only [answer, World.step] at h
  generalize after d ops = w at *
  obtain ⟨wd, wr⟩ := w
  simp only at h1 h2; subst h1
  unfold World.call at h
  split at h
  · simp at h
  · split at h
    · simp at h
    · rename_i j hj
      split at h
      · simp at h
      · rename_i k' hk
        simp at h
        obtain ⟨rfl, rfl⟩ := h
        simp only at hj hk
        obtain ⟨pre, env, post, e, hp, -, hm⟩ := h2 _ hj
        exact ⟨hk, pre, env, post, e, hp, hm⟩

example : answer (.random [(7, 0), (8, 5), (9, 1)]) [.poll { answer := fun i => if i = 2 then .ready else .pending }] .call = .sent 2 9 := by
  decide +kernel
example : Valid (.random [(7, 0), (8, 5), (9, 1)]) := by simp [Valid, u32Max]

/-- **C12.** A distribution with no selection standing answers a readiness check as follows: it gives up
only when every eligible backend has said it is pending; it reports an error only if an eligible
backend failed; otherwise it is ready.  It never panics and never loops. -/
theorem C12_readiness (d : Dist) (hv : Valid d) (ops : List Op) (hn : (after d ops).readyIdx = none) (env : Env) :
    (answer d ops (.poll env) = .ready ∧ ∃ i, MayChoose d env.answer i) ∨
    (answer d ops (.poll env) = .failed ∧ ∃ i, Eligible d i ∧ env.answer i = .failed) ∨
    (answer d ops (.poll env) = .pending ∧ ∀ i, Eligible d i → env.answer i = .pending) := by
  obtain ⟨h1, -⟩ := selInv d hv ops
  simp only [answer, World.step]
  generalize after d ops = w at *
  obtain ⟨wd, wr⟩ := w
  simp only at h1 hn; subst h1; subst hn
  rcases poll_spec wd hv env with ⟨i, h, hm⟩ | ⟨i, h, he⟩ | ⟨h, he⟩
  · exact .inl ⟨by rw [h], i, hm⟩
  · exact .inr (.inl ⟨by rw [h], i, he⟩)
  · exact .inr (.inr ⟨by rw [h], he⟩)

/-- **C12.** If no eligible backend fails and one of them is ready, the distribution is ready, whatever
the random draws. -/
theorem C12_ready_backend_makes_ready (d : Dist) (hv : Valid d) (ops : List Op) (env : Env)
    (hnf : ∀ i, Eligible d i → env.answer i ≠ .failed) (i : Nat) (he : Eligible d i) (hr : env.answer i = .ready) :
    answer d ops (.poll env) = .ready := by
  cases hn : (after d ops).readyIdx with
  | none =>
    rcases C12_readiness d hv ops hn env with h | ⟨-, j, hj, hjf⟩ | ⟨-, h⟩
    · exact h.1
    · exact absurd hjf (hnf j hj)
    · rw [h i he] at hr; cases hr
  | some j =>
    obtain ⟨h1, h2⟩ := selInv d hv ops
    have hne : d ≠ .empty := by rintro rfl; exact he.elim
    simp only [answer, World.step]
    generalize after d ops = w at *
    obtain ⟨wd, wr⟩ := w
    simp only at h1 hn; subst h1; subst hn
    rw [poll_selected wd j hne]

/-- **C12.** Once ready, a request is accepted: it does not panic. -/
theorem C12_ready_accepts_a_request (d : Dist) (hv : Valid d) (ops : List Op) (env : Env)
    (h : answer d ops (.poll env) = .ready) : ∃ i k, answer d (ops ++ [.poll env]) .call = .sent i k := by
  obtain ⟨h1, h2⟩ := selInv d hv (ops ++ [.poll env])
  have hr : ∃ i, (after d (ops ++ [.poll env])).readyIdx = some i := by
    obtain ⟨h3, -⟩ := selInv d hv ops
    rw [after_snoc]
    simp only [answer, World.step] at h ⊢
    generalize after d ops = w at *
    obtain ⟨wd, wr⟩ := w
    simp only at h3; subst h3
    cases wr with
    | some i =>
      by_cases hne : wd = .empty
      · subst hne; simp [World.poll] at h
      · rw [poll_selected wd i hne]; exact ⟨i, rfl⟩
    | none =>
      rcases poll_spec wd hv env with ⟨i, h', hm⟩ | ⟨i, h', -⟩ | ⟨h', -⟩
      · rw [h']; exact ⟨i, rfl⟩
      · rw [h'] at h; simp at h
      · rw [h'] at h; simp at h
  obtain ⟨i, hi⟩ := hr
  obtain ⟨_, _, _, -, -, -, hm⟩ := h2 i hi
  obtain ⟨k, hk⟩ := eligible_key d i hm.1
  have hne : d ≠ .empty := by rintro rfl; exact hm.1.elim
  refine ⟨i, k, ?_⟩
  simp only [answer, World.step]
  generalize after d (ops ++ [.poll env]) = w at *
  obtain ⟨wd, wr⟩ := w
  simp only at h1 hi; subst h1; subst hi
  cases wd <;> simp_all [World.call]

/-- **C12.** Empty distributions are never ready, however they come about. -/
theorem C12_empty_is_never_ready (d : Dist) (hd : d = .empty ∨ d = firstAvailable [] ∨ randomAvailable [] = .ok d)
    (ops : List Op) (env : Env) : answer d ops (.poll env) = .pending := by
  have hne : ∀ i, ¬ Eligible d i := by
    intro i
    rcases hd with rfl | rfl | hd
    · exact fun h => h
    · exact fun h => h
    · simp [randomAvailable] at hd; subst hd; simp [Eligible]
  have hv : Valid d := by
    rcases hd with rfl | rfl | hd
    · trivial
    · exact valid_of_first _
    · exact valid_of_random _ _ hd
  obtain ⟨-, h2⟩ := selInv d hv ops
  cases hn : (after d ops).readyIdx with
  | some i => obtain ⟨_, _, _, -, -, -, hm⟩ := h2 i hn; exact absurd hm.1 (hne i)
  | none =>
    rcases C12_readiness d hv ops hn env with ⟨-, i, hm⟩ | ⟨-, i, hm, -⟩ | ⟨h, -⟩
    · exact absurd hm.1 (hne i)
    · exact absurd hm (hne i)
    · exact h

/-- A list of one backend ignores its weight: a single backend of weight zero receives traffic. -/
example : randomAvailable [(7, 0)] = .ok (.first [7]) ∧
    answer (.first [7]) [.poll { answer := fun _ => .ready }] .call = .sent 0 7 := ⟨rfl, rfl⟩

end Verif.Distribute
