import Verif.Replay.Lemmas

namespace Verif.Replay

/-- The clones for which faithfulness is claimed: the original, clones first polled after some byte
had been read, and all clones of a body without data. -/
def Good (script : List BodyItem) (i : Nat) (L : List (Op × Out)) : Prop :=
  i = 0 ∨ Primed i L ∨ dataOf script = []

/-- Where the one `BodyState` is. -/
inductive Loc (w : World) (s : BodyState) : Prop
  | shared (h : w.shared = some s) (hn : ∀ (j : Nat) (h : Handle), w.handles[j]? = some h → h.state = none)
  | owned (hs : w.shared = none) (k : Nat) (hk : Handle) (hget : w.handles[k]? = some hk)
      (ha : hk.alive = true) (hst : hk.state = some s)
      (hn : ∀ (j : Nat) (h : Handle), w.handles[j]? = some h → j ≠ k → h.state = none)

structure Inv (script : List BodyItem) (max : Nat) (w : World) (L : List (Op × Out))
    (s : BodyState) (got : Bytes) : Prop where
  loc : Loc w s
  core : Core script max s got
  seen : (∃ j b, (Op.poll j, Out.data b) ∈ L ∧ b ≠ []) → got ≠ []
  fresh : ∀ (j : Nat) (h : Handle), w.handles[j]? = some h → h.alive = true → h.state = none →
    h.replayBody = true ∧ h.replayTrailers = true ∧ ¬ Polled j L ∧ j ≠ 0
  oob : ∀ j, w.handles.length ≤ j → ¬ Polled j L
  ne : w.handles ≠ []
  own : ∀ (k : Nat) (h : Handle), w.handles[k]? = some h → h.state = some s → Good script k L →
    OwnRel script h.replayBody h.replayTrailers s got (delivered k L) (deliveredTrailers k L)
      ((Op.poll k, Out.eos) ∈ L) ((Op.poll k, Out.capped) ∈ L)
  ownp : ∀ (k : Nat) (h : Handle), w.handles[k]? = some h → h.state = some s → k = 0 ∨ Polled k L
  zero : ∀ (h : Handle), w.handles[0]? = some h → h.replayBody = false
  done : ∀ j, Good script j L → delivered j L <+: dataOf script ∧
    (NoUnknown script → (Op.poll j, Out.eos) ∈ L →
      delivered j L = dataOf script ∧ deliveredTrailers j L = (trailersOf script).toList) ∧
    ((Op.poll j, Out.capped) ∈ L →
      delivered j L = [] ∧ deliveredTrailers j L = [] ∧ (Op.poll j, Out.eos) ∉ L)

theorem Good.of_snoc_self {script : List BodyItem} {i : Nat} {L : List (Op × Out)} {o : Out}
    (h : Good script i (L ++ [(.poll i, o)])) (ho : ¬ NoBody o) : Good script i L := by
  rcases h with h | h | h
  · exact Or.inl h
  · exact Or.inr (Or.inl (h.of_snoc ⟨o, by simp, ho⟩))
  · exact Or.inr (Or.inr h)

theorem Good.of_snoc_noData {script : List BodyItem} {i : Nat} {L : List (Op × Out)} {op : Op} {o : Out}
    (h : Good script i (L ++ [(op, o)])) (ho : ∀ b, o ≠ .data b) : Good script i L := by
  rcases h with h | h | h
  · exact Or.inl h
  · exact Or.inr (Or.inl (h.of_snoc_noData ho))
  · exact Or.inr (Or.inr h)

theorem Good.of_snoc_polled {script : List BodyItem} {i : Nat} {L : List (Op × Out)} {x : Op × Out}
    (h : Good script i (L ++ [x])) (hp : Polled i L) : Good script i L := by
  rcases h with h | h | h
  · exact Or.inl h
  · obtain ⟨o, ho, hn⟩ := hp
    exact Or.inr (Or.inl (h.of_snoc ⟨o, by simp [ho], hn⟩))
  · exact Or.inr (Or.inr h)

theorem Polled.of_snoc {i : Nat} {L : List (Op × Out)} {op : Op} {o : Out}
    (h : Polled i (L ++ [(op, o)])) (hx : op ≠ .poll i ∨ NoBody o) : Polled i L := by
  obtain ⟨o', ho', hn⟩ := h
  rcases List.mem_append.1 ho' with h | h
  · exact ⟨o', h, hn⟩
  · simp at h
    rcases hx with hx | hx
    · exact absurd h.1.symm hx
    · exact absurd (h.2 ▸ hx) hn

/-- Operations whose answer carries no body content and that leave the handles' flags alone. -/
theorem Inv.quiet {script max w L s got} (h : Inv script max w L s got) (op : Op) (o : Out)
    (hq : (∀ i, op ≠ .poll i) ∨ NoBody o) (hd : ∀ b, o ≠ .data b) (ht : ∀ t, o ≠ .trailers t)
    (he : o ≠ .eos) : Inv script max w (L ++ [(op, o)]) s got := by
  have hdel : ∀ j, delivered j (L ++ [(op, o)]) = delivered j L := by
    intro j; rw [delivered_append]
    cases op <;> cases o <;> simp_all [delivered]
  have htr : ∀ j, deliveredTrailers j (L ++ [(op, o)]) = deliveredTrailers j L := by
    intro j; rw [deliveredTrailers_append]
    cases op <;> cases o <;> simp_all [deliveredTrailers]
  have heos : ∀ j, (Op.poll j, Out.eos) ∈ L ++ [(op, o)] ↔ (Op.poll j, Out.eos) ∈ L := by
    intro j
    simp only [List.mem_append, List.mem_singleton, Prod.mk.injEq]
    constructor
    · rintro (h | ⟨_, h⟩)
      · exact h
      · exact absurd h.symm he
    · exact Or.inl
  have hcapd : ∀ j, (Op.poll j, Out.capped) ∈ L ++ [(op, o)] ↔ (Op.poll j, Out.capped) ∈ L := by
    intro j
    simp only [List.mem_append, List.mem_singleton, Prod.mk.injEq]
    constructor
    · rintro (h | ⟨h1, h⟩)
      · exact h
      · rcases hq with hq | hq
        · exact absurd h1.symm (hq j)
        · subst h; rcases hq with hq | hq <;> cases hq
    · exact Or.inl
  have hpol : ∀ j, Polled j (L ++ [(op, o)]) → Polled j L := by
    intro j hp
    exact hp.of_snoc (hq.imp (fun h => h j) id)
  refine ⟨h.loc, h.core, ?_, ?_, ?_, h.ne, ?_, ?_, h.zero, ?_⟩
  · rintro ⟨j, b, hm, hb⟩
    rcases List.mem_append.1 hm with hm | hm
    · exact h.seen ⟨j, b, hm, hb⟩
    · simp at hm; exact absurd hm.2.symm (hd b)
  · intro j hh h1 h2 h3
    obtain ⟨a, b, c, d⟩ := h.fresh j hh h1 h2 h3
    exact ⟨a, b, fun hp => c (hpol j hp), d⟩
  · intro j hj hp; exact h.oob j hj (hpol j hp)
  · intro k hh h1 h2 hg
    rw [hdel, htr, heos, hcapd]
    exact h.own k hh h1 h2 (hg.of_snoc_noData hd)
  · intro k hh h1 h2
    exact (h.ownp k hh h1 h2).imp id (fun ⟨o', ho', hn⟩ => ⟨o', by simp [ho'], hn⟩)
  · intro j hg
    rw [hdel, htr, heos, hcapd]
    exact h.done j (hg.of_snoc_noData hd)

theorem OwnRel.conclude {script max s got rb rt D T} {E C : Prop}
    (hc : Core script max s got) (h : OwnRel script rb rt s got D T E C) :
    D <+: dataOf script ∧
    (NoUnknown script → E → D = dataOf script ∧ T = (trailersOf script).toList) ∧
    (C → D = [] ∧ T = [] ∧ ¬ E) := by
  rcases h with ⟨hC, hD, _, hT0, _, hE⟩ | ⟨_, _, hD, hT, hE, _⟩
  · refine ⟨hD ▸ ⟨left s, hc.total⟩, ?_, fun c => absurd c hC⟩
    intro hN he
    obtain ⟨hcomp, hrt⟩ := hE hN he
    have := hc.total
    simp only [left, hcomp, if_true, List.append_nil] at this
    exact ⟨hD.trans this, by rw [hT0 hrt, hc.trC hcomp]⟩
  · exact ⟨by simp [hD], fun _ he => absurd he hE, fun _ => ⟨hD, hT, hE⟩⟩

/-- One poll by clone `k`, which then owns the state. -/
theorem Inv.pollStep {script max w L s got} (h : Inv script max w L s got) (k : Nat) (hk : Handle)
    (hget : w.handles[k]? = some hk) (ha : hk.alive = true)
    (hst : hk.state = some s ∨ (hk.state = none ∧ w.shared = some s)) :
    ∃ s' got', Inv script max
      { handles := w.handles.set k
          { hk with state := some (pollOwned hk.replayBody hk.replayTrailers s).1.2.2,
                    replayBody := (pollOwned hk.replayBody hk.replayTrailers s).1.1,
                    replayTrailers := (pollOwned hk.replayBody hk.replayTrailers s).1.2.1 }
        shared := none }
      (L ++ [(.poll k, (pollOwned hk.replayBody hk.replayTrailers s).2)]) s' got' := by
  obtain ⟨got', hcore, hgot, hdat, hnb, hrtF, hrbF, hown⟩ :=
    pollOwned_spec hk.replayBody hk.replayTrailers h.core
  refine ⟨(pollOwned hk.replayBody hk.replayTrailers s).1.2.2, got', ?_⟩
  generalize hp : pollOwned hk.replayBody hk.replayTrailers s = res at *
  have hklt : k < w.handles.length := (List.getElem?_eq_some_iff.1 hget).1
  have hnone : ∀ (j : Nat) (h' : Handle), w.handles[j]? = some h' → j ≠ k → h'.state = none := by
    intro j h' hj hne
    cases h.loc with
    | shared _ hn => exact hn j h' hj
    | owned hs k' hk' hget' ha' hst' hn =>
      have : k' = k := by
        rcases hst with hst | ⟨_, hsh⟩
        · apply Classical.byContradiction
          intro hne'
          have := hn k hk hget (fun e => hne' e.symm)
          rw [this] at hst; cases hst
        · rw [hs] at hsh; cases hsh
      exact hn j h' hj (this ▸ hne)
  have hgetk : ∀ x : Handle, (w.handles.set k x)[k]? = some x := by
    intro x; rw [List.getElem?_set_self hklt]
  have hgetj : ∀ (x : Handle) (j : Nat), j ≠ k → (w.handles.set k x)[j]? = w.handles[j]? := by
    intro x j hj; rw [List.getElem?_set_ne (fun e => hj e.symm)]
  -- the owner's relation before the step
  have hrel : Good script k L → OwnRel script hk.replayBody hk.replayTrailers s got
      (delivered k L) (deliveredTrailers k L) ((Op.poll k, Out.eos) ∈ L)
      ((Op.poll k, Out.capped) ∈ L) := by
    intro hg
    rcases hst with hst | ⟨hst, hsh⟩
    · exact h.own k hk hget hst hg
    · obtain ⟨hrb, hrt, hnp, hk0⟩ := h.fresh k hk hget ha hst
      obtain ⟨d0, t0, e0⟩ := not_polled_delivered hnp
      have c0 : (Op.poll k, Out.capped) ∉ L := by
        intro hm; exact hnp ⟨_, hm, by simp [NoBody]⟩
      rw [hrb, hrt, d0, t0]
      rcases hg with hg | hg | hg
      · exact absurd hg hk0
      · exact Or.inr ⟨rfl, rfl, rfl, rfl, e0, h.seen hg.seen, fun c => absurd c c0⟩
      · left
        have hz : got = [] := by
          have := h.core.total
          rw [hg] at this
          exact (List.append_eq_nil_iff.1 this).1
        exact ⟨c0, hz.symm, Or.inr hg, by simp, fun _ => rfl, fun _ he => absurd he e0⟩
  have hrel' : Good script k (L ++ [(.poll k, res.2)]) →
      OwnRel script res.1.1 res.1.2.1 res.1.2.2 got'
        (delivered k (L ++ [(.poll k, res.2)])) (deliveredTrailers k (L ++ [(.poll k, res.2)]))
        ((Op.poll k, Out.eos) ∈ L ++ [(.poll k, res.2)])
        ((Op.poll k, Out.capped) ∈ L ++ [(.poll k, res.2)]) := by
    intro hg
    have := hown _ _ _ _ (hrel (hg.of_snoc_self hnb))
    rw [delivered_snoc_self, deliveredTrailers_snoc_self]
    have heq : ∀ x : Out, ((Op.poll k, x) ∈ L ++ [(.poll k, res.2)]) =
        (((Op.poll k, x) ∈ L) ∨ res.2 = x) := by
      intro x
      simp only [List.mem_append, List.mem_singleton, Prod.mk.injEq, true_and, eq_iff_iff]
      constructor
      · rintro (h | h)
        · exact Or.inl h
        · exact Or.inr h.symm
      · rintro (h | h)
        · exact Or.inl h
        · exact Or.inr h.symm
    rw [heq, heq]; exact this
  have hother : ∀ j, j ≠ k → delivered j (L ++ [(.poll k, res.2)]) = delivered j L ∧
      deliveredTrailers j (L ++ [(.poll k, res.2)]) = deliveredTrailers j L ∧
      (∀ x, (Op.poll j, x) ∈ L ++ [(.poll k, res.2)] ↔ (Op.poll j, x) ∈ L) ∧
      (Polled j (L ++ [(.poll k, res.2)]) → Polled j L) := by
    intro j hj
    have hne : Op.poll k ≠ .poll j := by simp; exact fun e => hj e.symm
    refine ⟨delivered_snoc_other _ _ _ _ hne, deliveredTrailers_snoc_other _ _ _ _ hne, ?_,
      fun hp => hp.of_snoc (Or.inl hne)⟩
    intro x
    constructor
    · intro hm
      rcases List.mem_append.1 hm with hm | hm
      · exact hm
      · simp at hm; exact absurd hm.1 hj
    · intro hm; simp [hm]
  refine ⟨?_, hcore, ?_, ?_, ?_, ?_, ?_, ?_, ?_, ?_⟩
  · refine .owned rfl k _ (hgetk _) ha rfl ?_
    intro j h' hj hne
    simp only at hj
    rw [hgetj _ j hne] at hj
    exact hnone j h' hj hne
  · rintro ⟨j, b, hm, hb⟩
    rcases List.mem_append.1 hm with hm | hm
    · exact hgot (h.seen ⟨j, b, hm, hb⟩)
    · simp at hm; exact hdat b hm.2.symm hb
  · intro j h' hj hal hn
    by_cases hjk : j = k
    · subst hjk
      simp only at hj
      rw [hgetk] at hj
      cases hj; cases hn
    · simp only at hj
      rw [hgetj _ j hjk] at hj
      obtain ⟨a, b, c, d⟩ := h.fresh j h' hj hal hn
      exact ⟨a, b, fun hp => c ((hother j hjk).2.2.2 hp), d⟩
  · intro j hj hp
    simp only [List.length_set] at hj
    exact h.oob j hj ((hother j (by omega)).2.2.2 hp)
  · simp only [ne_eq, List.set_eq_nil_iff]; exact h.ne
  · intro j h' hj hs' hg
    by_cases hjk : j = k
    · subst hjk
      simp only at hj
      rw [hgetk] at hj
      cases hj
      exact hrel' hg
    · simp only at hj
      rw [hgetj _ j hjk] at hj
      rw [hnone j h' hj hjk] at hs'; cases hs'
  · intro j h' hj hs'
    by_cases hjk : j = k
    · subst hjk
      exact Or.inr ⟨_, List.mem_append_right _ (List.mem_singleton.2 rfl), hnb⟩
    · simp only at hj
      rw [hgetj _ j hjk] at hj
      rw [hnone j h' hj hjk] at hs'; cases hs'
  · intro h' hj
    by_cases hjk : 0 = k
    · subst hjk
      simp only at hj
      rw [hgetk] at hj
      cases hj
      exact hrbF (h.zero hk hget)
    · simp only at hj
      rw [hgetj _ 0 hjk] at hj
      exact h.zero h' hj
  · intro j hg
    by_cases hjk : j = k
    · subst hjk
      exact (hrel' hg).conclude hcore
    · obtain ⟨h1, h2, h3, h4⟩ := hother j hjk
      rw [h1, h2, h3, h3]
      by_cases hpj : Polled j L
      · exact h.done j (hg.of_snoc_polled hpj)
      · obtain ⟨d0, t0, e0⟩ := not_polled_delivered hpj
        rw [d0, t0]
        exact ⟨List.nil_prefix, fun _ he => absurd he e0, fun _ => ⟨rfl, rfl, e0⟩⟩

theorem Inv.step {script max w L s got} (h : Inv script max w L s got) (op : Op) :
    ∃ s' got', Inv script max (w.step op).1 (L ++ [(op, (w.step op).2)]) s' got' := by
  cases op with
  | poll i =>
    simp only [World.step, World.poll]
    split
    · exact ⟨s, got, h.quiet _ _ (Or.inr (Or.inr rfl)) (by simp) (by simp) (by simp)⟩
    · rename_i hk hget
      split
      · exact ⟨s, got, h.quiet _ _ (Or.inr (Or.inr rfl)) (by simp) (by simp) (by simp)⟩
      · rename_i ha
        have ha : hk.alive = true := by simpa using ha
        split
        · rename_i s0 hst
          have hs0 : s0 = s := by
            cases h.loc with
            | shared hs hn => rw [hn i hk hget] at hst; cases hst
            | owned hs k' hk' hget' ha' hst' hn =>
              by_cases e : i = k'
              · subst e; rw [hget'] at hget; cases hget; rw [hst'] at hst; exact (Option.some.inj hst).symm
              · rw [hn i hk hget e] at hst; cases hst
          subst hs0
          have hshn : w.shared = none := by
            cases h.loc with
            | shared hs hn => rw [hn i hk hget] at hst; cases hst
            | owned hs => exact hs
          have := h.pollStep i hk hget ha (Or.inl hst)
          rw [← hshn] at this
          exact this
        · rename_i s0 hst hsh
          have hs0 : s0 = s := by
            cases h.loc with
            | shared hs hn => rw [hs] at hsh; exact (Option.some.inj hsh).symm
            | owned hs => rw [hs] at hsh; cases hsh
          subst hs0
          exact h.pollStep i hk hget ha (Or.inr ⟨hst, hsh⟩)
        · exact ⟨s, got, h.quiet _ _ (Or.inr (Or.inl rfl)) (by simp) (by simp) (by simp)⟩
  | clone i =>
    simp only [World.step, World.clone]
    split
    · exact ⟨s, got, h.quiet _ _ (Or.inl (by simp)) (by simp) (by simp) (by simp)⟩
    · rename_i hk hget
      split
      · exact ⟨s, got, h.quiet _ _ (Or.inl (by simp)) (by simp) (by simp) (by simp)⟩
      · refine ⟨s, got, ?_⟩
        have hq := h.quiet (.clone i) .unit (Or.inl (by simp)) (by simp) (by simp) (by simp)
        have hpos : 0 < w.handles.length := List.length_pos_iff.2 h.ne
        have hget : ∀ (j : Nat) (h' : Handle), (w.handles ++ [{ state := none, replayBody := true, replayTrailers := true, alive := true }])[j]? = some h' →
            w.handles[j]? = some h' ∨ (j = w.handles.length ∧ h' = { state := none, replayBody := true, replayTrailers := true, alive := true }) := by
          intro j h' hj
          rw [List.getElem?_append] at hj
          split at hj
          · exact Or.inl hj
          · right
            rename_i hlt
            have : j - w.handles.length = 0 := by
              have := (List.getElem?_eq_some_iff.1 hj).1
              simp at this; omega
            rw [this] at hj
            simp at hj
            exact ⟨by omega, hj.symm⟩
        have hlift : ∀ (j : Nat) (h' : Handle), w.handles[j]? = some h' → (w.handles ++ [{ state := none, replayBody := true, replayTrailers := true, alive := true }])[j]? = some h' := by
          intro j h' hj
          rw [List.getElem?_append_left (List.getElem?_eq_some_iff.1 hj).1]; exact hj
        refine ⟨?_, hq.core, hq.seen, ?_, ?_, by simp, ?_, ?_, ?_, hq.done⟩
        · cases hq.loc with
          | shared hs hn =>
            refine .shared hs ?_
            intro j h' hj
            rcases hget j h' hj with hj | ⟨_, rfl⟩
            · exact hn j h' hj
            · rfl
          | owned hs k hk hg ha hst hn =>
            refine .owned hs k hk (hlift k hk hg) ha hst ?_
            intro j h' hj hne
            rcases hget j h' hj with hj | ⟨_, rfl⟩
            · exact hn j h' hj hne
            · rfl
        · intro j h' hj hal hn
          rcases hget j h' hj with hj | ⟨rfl, rfl⟩
          · exact hq.fresh j h' hj hal hn
          · exact ⟨rfl, rfl, hq.oob _ (Nat.le_refl _), by omega⟩
        · intro j hj
          simp at hj
          exact hq.oob j (by omega)
        · intro k h' hj hs' hg
          rcases hget k h' hj with hj | ⟨rfl, rfl⟩
          · exact hq.own k h' hj hs' hg
          · cases hs'
        · intro k h' hj hs'
          rcases hget k h' hj with hj | ⟨rfl, rfl⟩
          · exact hq.ownp k h' hj hs'
          · cases hs'
        · intro h' hj
          rcases hget 0 h' hj with hj | ⟨e, rfl⟩
          · exact hq.zero h' hj
          · omega
  | drop i =>
    simp only [World.step, World.drop]
    split
    · exact ⟨s, got, h.quiet _ _ (Or.inl (by simp)) (by simp) (by simp) (by simp)⟩
    · rename_i hk hget
      split
      · exact ⟨s, got, h.quiet _ _ (Or.inl (by simp)) (by simp) (by simp) (by simp)⟩
      · refine ⟨s, got, ?_⟩
        have hq := h.quiet (.drop i) .unit (Or.inl (by simp)) (by simp) (by simp) (by simp)
        have hilt : i < w.handles.length := (List.getElem?_eq_some_iff.1 hget).1
        have hgeti : ∀ x : Handle, (w.handles.set i x)[i]? = some x := by
          intro x; rw [List.getElem?_set_self hilt]
        have hgetj : ∀ (x : Handle) (j : Nat), j ≠ i → (w.handles.set i x)[j]? = w.handles[j]? := by
          intro x j hj; rw [List.getElem?_set_ne (fun e => hj e.symm)]
        refine ⟨?_, hq.core, hq.seen, ?_, ?_, ?_, ?_, ?_, ?_, hq.done⟩
        · cases hq.loc with
          | shared hs hn =>
            have hst : hk.state = none := hn i hk hget
            refine .shared (by simp [hst, hs]) ?_
            intro j h' hj
            simp only at hj
            by_cases e : j = i
            · subst e; rw [hgeti] at hj; cases hj; rfl
            · rw [hgetj _ j e] at hj; exact hn j h' hj
          | owned hs k hk' hg ha hst hn =>
            by_cases e : i = k
            · subst e
              rw [hget] at hg; cases hg
              refine .shared (by simp [hst]) ?_
              intro j h' hj
              simp only at hj
              by_cases e : j = i
              · subst e; rw [hgeti] at hj; cases hj; rfl
              · rw [hgetj _ j e] at hj; exact hn j h' hj e
            · have hin : hk.state = none := hn i hk hget e
              refine .owned (by simp [hin, hs]) k hk' (by simp only; rw [hgetj _ k (fun e' => e e'.symm)]; exact hg) ha hst ?_
              intro j h' hj hne
              simp only at hj
              by_cases e : j = i
              · subst e; rw [hgeti] at hj; cases hj; rfl
              · rw [hgetj _ j e] at hj; exact hn j h' hj hne
        · intro j h' hj hal hn
          simp only at hj
          by_cases e : j = i
          · subst e; rw [hgeti] at hj; cases hj; cases hal
          · rw [hgetj _ j e] at hj; exact hq.fresh j h' hj hal hn
        · intro j hj
          simp only [List.length_set] at hj
          exact hq.oob j hj
        · simp only [ne_eq, List.set_eq_nil_iff]; exact h.ne
        · intro j h' hj hs' hg
          simp only at hj
          by_cases e : j = i
          · subst e; rw [hgeti] at hj; cases hj; cases hs'
          · rw [hgetj _ j e] at hj; exact hq.own j h' hj hs' hg
        · intro j h' hj hs'
          simp only at hj
          by_cases e : j = i
          · subst e; rw [hgeti] at hj; cases hj; cases hs'
          · rw [hgetj _ j e] at hj; exact hq.ownp j h' hj hs'
        · intro h' hj
          simp only at hj
          by_cases e : 0 = i
          · subst e; rw [hgeti] at hj; cases hj; exact hq.zero hk hget
          · rw [hgetj _ 0 e] at hj; exact hq.zero h' hj
  | isCapped i =>
    simp only [World.step, World.isCapped]
    split
    · exact ⟨s, got, h.quiet _ _ (Or.inl (by simp)) (by simp) (by simp) (by simp)⟩
    · split
      · exact ⟨s, got, h.quiet _ _ (Or.inl (by simp)) (by simp) (by simp) (by simp)⟩
      · exact ⟨s, got, h.quiet _ _ (Or.inl (by simp)) (by simp) (by simp) (by simp)⟩

theorem Inv.run {script max w L s got} (h : Inv script max w L s got) (ops : List Op) :
    ∃ s' got', Inv script max (run w ops).1 (L ++ (run w ops).2) s' got' := by
  induction ops generalizing w L s got with
  | nil => exact ⟨s, got, by simpa [Replay.run] using h⟩
  | cons op ops ih =>
    obtain ⟨s', got', h'⟩ := h.step op
    obtain ⟨s'', got'', h''⟩ := ih h'
    refine ⟨s'', got'', ?_⟩
    simpa [Replay.run] using h''

theorem Inv.init {script lower max w} (h : tryNew script lower max = some w) :
    Inv script max w [] { replay := [], trailers := none, rest := script,
                          isCompleted := false, maxBytes := max + 1 } [] := by
  unfold tryNew at h
  split at h
  · cases h
  · cases h
    have hget : ∀ (x : Handle) (j : Nat) (h' : Handle), ([x] : List Handle)[j]? = some h' → j = 0 ∧ h' = x := by
      intro x j h' hj
      have := (List.getElem?_eq_some_iff.1 hj).1
      simp at this
      subst this
      simp at hj
      exact ⟨rfl, hj.symm⟩
    refine ⟨.owned rfl 0 _ rfl rfl rfl ?_, ?_, ?_, ?_, ?_, by simp, ?_, ?_, ?_, ?_⟩
    · intro j h' hj hne
      exact absurd (hget _ j h' hj).1 hne
    · exact ⟨by simp [left], Or.inl ⟨by simp, by simp, by simp⟩, by simp, fun _ => ⟨rfl, rfl⟩, id⟩
    · simp
    · intro j h' hj _ hn
      obtain ⟨_, rfl⟩ := hget _ j h' hj
      cases hn
    · intro j _ hp
      obtain ⟨o, ho, _⟩ := hp; simp at ho
    · intro k h' hj hs _
      obtain ⟨rfl, rfl⟩ := hget _ k h' hj
      left
      simp [delivered, deliveredTrailers]
    · intro k h' hj hs
      exact Or.inl (hget _ k h' hj).1
    · intro h' hj
      obtain ⟨_, rfl⟩ := hget _ 0 h' hj
      rfl
    · intro j _
      simp [delivered]

end Verif.Replay
