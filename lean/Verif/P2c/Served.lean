import Verif.P2c.Props

/-!
# C11: every endpoint can be chosen
-/

namespace Verif.P2c

open Assoc

theorem genPair_first (x y len : Nat) (h : x < len) : (genPair x y len).1 = x := Nat.mod_eq_of_lt h

theorem genPair_second (x y len : Nat) (hx : x < len) (h : 2 ≤ len) : (genPair x y len).2 < len := by
  have hb : y % (len - 1) < len - 1 := Nat.mod_lt _ (by omega)
  simp only [genPair]
  split <;> omega

/-- The draws decide; loads that are all the same do not. -/
theorem pick_any (w : World) (i : Nat) (fin : List (Nat × Bool)) (h : i < w.ready.length) :
    w.pick { finished := fin, x := i } = .ok (some i) := by
  unfold World.pick
  split
  · omega
  · rename_i h1
    have : i = 0 := by omega
    rw [this]
  · rename_i len h0 h1
    have h2 : 2 ≤ w.ready.length := by
      rcases Nat.lt_or_ge w.ready.length 2 with hl | hl
      · rcases Nat.lt_or_ge 0 w.ready.length with hp | hp
        · exact absurd (by omega) h1
        · exact absurd (by omega) h0
      · exact hl
    rw [genPair_first _ _ _ h, List.getElem?_eq_getElem h, List.getElem?_eq_getElem (genPair_second i 0 _ h h2)]
    simp

/-- With none chosen yet, a ready endpoint can be chosen and sent to. -/
theorem choose_ready (w : World) (fin : List (Nat × Bool)) (hn : w.nextIdx = none) (k : Nat) (s : Svc) (hm : (k, s) ∈ w.ready) :
    ∃ i, (w.select { finished := fin, x := i }).2 = .ready ∧ (w.select { finished := fin, x := i }).1.call.2 = .sent s := by
  obtain ⟨i, hi, he⟩ := List.mem_iff_getElem.1 hm
  have hg : w.ready[i]? = some (k, s) := by rw [List.getElem?_eq_getElem hi, he]
  refine ⟨i, ?_⟩
  have hs : w.select { finished := fin, x := i } =
      ({ w with nextIdx := some i, log := .answered s.id .ready :: w.log }, .ready) := by
    unfold World.select
    simp only [hn, pick_any w i fin hi, World.check, hg]
  rw [hs]
  refine ⟨rfl, ?_⟩
  simp only [World.call, hg]

theorem choose {w : World} (h : Inv w) (hn : w.nextIdx = none) (hf : NoFail w.log) (a t : Nat) (hl : lookup a w.endpoints = some t) :
    ∃ (p : Pass) (s : Svc), (w.pollReady p).2 = .ready ∧ s.addr = a ∧ s.target = t ∧ (w.pollReady p).1.call.2 = .sent s := by
  obtain ⟨s, -, h1, h2, hin⟩ := h.core.cur hf a t hl
  rcases hin with hp | ⟨-, hr⟩
  · have hk : lookup a w.pending = some s := lookup_of_mem h.core.dP hp
    obtain ⟨i, g1, g2⟩ := choose_ready
      { w with pending := erase a w.pending, ready := put a s w.ready, log := .answered s.id .ready :: w.log } [(a, true)] hn a s
      ((mem_put_iff h.core.dR).2 (.inl rfl))
    refine ⟨{ finished := [(a, true)], x := i }, s, ?_, h1, h2, ?_⟩
    · simp only [World.pollReady, World.pollPending, hk, if_true]; exact g1
    · simp only [World.pollReady, World.pollPending, hk, if_true]; exact g2
  · obtain ⟨i, g1, g2⟩ := choose_ready w [] hn a s hr
    exact ⟨{ x := i }, s, g1, h1, h2, g2⟩

/-- **C11.** No endpoint is left out: at every moment, while no endpoint has failed, each address that the updates so far describe
can be the one chosen next, with the endpoint made for what they say of it: there are answers of endpoints and random draws with
which a call of `poll_ready` finds the pool ready and the next request is sent there. -/
theorem C11_every_endpoint_can_be_chosen (ops : List Op) (a t : Nat) (hl : Spec.target ops a = some t)
    (hf : ∀ i, Ev.answered i .failed ∉ (after ops).log) :
    ∃ (first : List Pass) (p : Pass) (s : Svc),
      (∀ pre x post, first = pre ++ x :: post → answer (ops ++ pre.map .pollReady) (.pollReady x) = .again) ∧
      answer (ops ++ first.map .pollReady) (.pollReady p) = .ready ∧
      s.addr = a ∧ s.target = t ∧
      answer (ops ++ first.map .pollReady ++ [.pollReady p]) .call = .sent s := by
  cases hn : (after ops).nextIdx with
  | none =>
    have he : lookup a (after ops).endpoints = some t := by rw [C11_endpoints_are_the_fold_of_updates, hl]
    obtain ⟨p, s, h1, h2, h3, h4⟩ := choose (after_inv ops) hn hf a t he
    refine ⟨[], p, s, ?_, ?_, h2, h3, ?_⟩
    · intro pre x post e; cases pre <;> cases e
    · simp only [List.map_nil, List.append_nil]; exact h1
    · simp only [List.map_nil, List.append_nil, answer, after_snoc]; exact h4
  | some i =>
    have hi := (after_inv ops).idx i hn
    have hs : ((after ops).step (.pollReady { check := .pending })).2 = .again ∧
        ((after ops).step (.pollReady { check := .pending })).1.nextIdx = none ∧
        NoFail ((after ops).step (.pollReady { check := .pending })).1.log := by
      simp only [World.step, World.pollReady, World.pollPending, World.select, hn, World.check]
      rw [List.getElem?_eq_getElem hi]
      refine ⟨rfl, rfl, fun j hj => ?_⟩
      rcases List.mem_cons.1 hj with hj | hj
      · cases hj
      · exact hf j hj
    obtain ⟨g1, g2, g3⟩ := hs
    rw [← after_snoc] at g2 g3
    have he : lookup a (after (ops ++ [.pollReady { check := .pending }])).endpoints = some t := by
      rw [C11_endpoints_are_the_fold_of_updates]
      simpa [Spec.target, List.foldl_append, Spec.update] using hl
    obtain ⟨p, s, h1, h2, h3, h4⟩ := choose (after_inv _) g2 g3 a t he
    refine ⟨[{ check := .pending }], p, s, ?_, h1, h2, h3, ?_⟩
    · intro pre x post e
      cases pre with
      | nil =>
        injection e with e _
        subst e
        simp only [List.map_nil, List.append_nil]
        exact g1
      | cons y ys => injection e with _ e; cases ys <;> cases e
    · simp only [answer, after_snoc (ops ++ _)]; exact h4

/-- Two endpoints, of which the first was already chosen: the second can still be. -/
abbrev chosen : List Op := [.add 1 10, .add 2 20, .pollReady { finished := [(1, true), (2, true)] }]

example : Spec.target chosen 2 = some 20 ∧ (after chosen).nextIdx = some 0 ∧
    ((after chosen).log.all fun e => match e with | .answered _ .failed => false | _ => true) = true ∧
    answer chosen .call = .sent ⟨0, 1, 10⟩ ∧
    answer (chosen ++ [.pollReady { check := .pending }, .pollReady {}]) .call = .sent ⟨1, 2, 20⟩ := by
  decide +kernel

end Verif.P2c
