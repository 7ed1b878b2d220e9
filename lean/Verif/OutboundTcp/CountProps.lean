import Verif.OutboundTcp.Props
/-!
# C106 — connections are counted once
-/
namespace Verif.OutboundTcp
open Verif.ClientPolicy Verif.OutboundTcp.Spec

section
variable {κ : Type} [DecidableEq κ]

theorem value_create (k k' : κ) (l : Labels) (reg : List (κ × Labels × Nat)) : value k (getOrCreate k' l reg) = value k reg := by
  unfold getOrCreate
  cases h : Assoc.lookup k' reg with
  | some _ => rfl
  | none =>
    simp only [value, Assoc.lookup_put]
    by_cases e : k = k'
    · subst e; rw [if_pos rfl, h]
    · rw [if_neg e]

theorem some_create (k k' : κ) (l : Labels) (reg : List (κ × Labels × Nat)) :
    (Assoc.lookup k (getOrCreate k' l reg)).isSome = ((Assoc.lookup k reg).isSome || decide (k = k')) := by
  unfold getOrCreate
  cases h : Assoc.lookup k' reg with
  | some _ =>
    by_cases e : k = k'
    · subst e; simp [h]
    · simp [e]
  | none =>
    simp only [Assoc.lookup_put]
    by_cases e : k = k'
    · subst e; simp
    · simp [e]

theorem value_inc (k k' : κ) (reg : List (κ × Labels × Nat)) (h : (Assoc.lookup k' reg).isSome) :
    value k (inc k' reg) = value k reg + if k = k' then 1 else 0 := by
  obtain ⟨⟨l, n⟩, e⟩ := Option.isSome_iff_exists.1 h
  simp only [inc, e, value, Assoc.lookup_put]
  by_cases hk : k = k'
  · subst hk; simp [e]
  · simp [hk]

theorem some_inc (k k' : κ) (reg : List (κ × Labels × Nat)) : (Assoc.lookup k (inc k' reg)).isSome = (Assoc.lookup k reg).isSome := by
  unfold inc
  cases h : Assoc.lookup k' reg with
  | none => rfl
  | some ln =>
    obtain ⟨l, n⟩ := ln
    simp only [Assoc.lookup_put]
    by_cases e : k = k'
    · subst e; simp [h]
    · simp [e]
end

theorem count_or (L : List (Nat × Serving)) (hd : (L.map (·.1)).Nodup) (id : Nat) (sv : Serving) (hm : (id, sv) ∈ L)
    (r : Serving → Bool) (f : Nat → Bool) (R : Bool) :
    L.countP (fun a => r a.2 && (f a.1 || (a.1 == id && R))) = L.countP (fun a => r a.2 && f a.1) + if r sv && !f id && R then 1 else 0 := by
  induction L with
  | nil => cases hm
  | cons x L ih =>
    rw [List.map_cons, List.nodup_cons] at hd
    rw [List.countP_cons, List.countP_cons]
    by_cases hx : x.1 = id
    · have hxe : x = (id, sv) := by
        rcases List.mem_cons.1 hm with h | h
        · exact h.symm
        · exact absurd (List.mem_map.2 ⟨_, h, hx.symm⟩) hd.1
      subst hxe
      have htail : L.countP (fun a => r a.2 && (f a.1 || (a.1 == id && R))) = L.countP (fun a => r a.2 && f a.1) := by
        apply List.countP_congr
        intro a ha
        have : a.1 ≠ id := fun e => hd.1 (List.mem_map.2 ⟨a, ha, e⟩)
        simp [this]
      rw [htail]
      cases r sv <;> cases f id <;> cases R <;> simp
    · have hm' : (id, sv) ∈ L := by
        rcases List.mem_cons.1 hm with h | h
        · exact absurd (by rw [← h]) hx
        · exact h
      rw [ih hd.2 hm']
      have : (x.1 == id) = false := by simpa using hx
      rw [this]
      simp only [Bool.false_and, Bool.or_false]
      omega

theorem reached_snoc (id : Nat) (t : List (Op × Seen)) (e : Op × Seen) :
    reached id (t ++ [e]) = (reached id t || (polls id e.1 && reaches e.2.out)) := by
  simp only [reached, List.any_append, List.any_cons, List.any_nil, Bool.or_false]

theorem ended_snoc (id : Nat) (kind : Option Kind) (t : List (Op × Seen)) (e : Op × Seen) :
    ended id kind (t ++ [e]) = (ended id kind t || (polls id e.1 && ends kind e.2.out)) := by
  simp only [ended, List.any_append, List.any_cons, List.any_nil, Bool.or_false]

structure Inv (s : Sys) (T : List (Op × Seen)) : Prop where
  sel : ∀ id rt, Assoc.lookup id s.conns = some (.selected rt) → ∃ sv, (id, sv) ∈ accepted T ∧ Made sv ∧ sv.select = some rt ∧
    reached id T = false ∧ ∀ k, ended id k T = false
  srv : ∀ id l c, Assoc.lookup id s.conns = some (.serving l c) → ∃ sv rt, (id, sv) ∈ accepted T ∧ sv.select = some rt ∧
    rt.labels = l ∧ reached id T = true ∧ ∀ k, ended id k T = false
  nor : ∀ id, Assoc.lookup id s.conns = some .noRoute → ∃ sv, (id, sv) ∈ accepted T ∧ sv.select = none
  known : ∀ id, (reached id T = true ∨ ∃ k, ended id k T = true) → ∃ sv, (id, sv) ∈ accepted T
  regs : ∀ id sv rt, (id, sv) ∈ accepted T → sv.select = some rt →
    (Assoc.lookup rt.labels.key s.opened).isSome ∧ ∀ kind, (Assoc.lookup (rt.labels.key, kind) s.closed).isSome
  opened : ∀ k, value k s.opened = (accepted T).countP fun a => routedTo k a.2 && reached a.1 T
  closed : ∀ k kind, value (k, kind) s.closed = (accepted T).countP fun a => routedTo k a.2 && ended a.1 kind T

theorem accepted_snoc_not (T : List (Op × Seen)) (e : Op × Seen) (h : ∀ id sv, e.1 ≠ .accept id sv) : accepted (T ++ [e]) = accepted T := by
  obtain ⟨op, seen⟩ := e
  cases op with
  | accept id sv => exact absurd rfl (h id sv)
  | poll _ _ _ _ => simp [accepted]
  | drop _ => simp [accepted]

/-- Nothing is told. -/
theorem inv_quiet {s s' : Sys} {T : List (Op × Seen)} (hi : Inv s T) (e : Op × Seen) (ha : ∀ id sv, e.1 ≠ .accept id sv)
    (ho : ∀ id, polls id e.1 = true → reaches e.2.out = false ∧ ∀ k, ends k e.2.out = false)
    (h1 : s'.opened = s.opened) (h2 : s'.closed = s.closed)
    (hc : ∀ j, Assoc.lookup j s'.conns = Assoc.lookup j s.conns ∨ Assoc.lookup j s'.conns = none) : Inv s' (T ++ [e]) := by
  have hr : ∀ id, reached id (T ++ [e]) = reached id T := by
    intro id
    rw [reached_snoc]
    cases hp : polls id e.1 with
    | false => simp
    | true => simp [(ho id hp).1]
  have he : ∀ id k, ended id k (T ++ [e]) = ended id k T := by
    intro id k
    rw [ended_snoc]
    cases hp : polls id e.1 with
    | false => simp
    | true => simp [(ho id hp).2 k]
  have hacc := accepted_snoc_not T e ha
  constructor
  · intro id rt h
    rcases hc id with hh | hh
    · rw [hh] at h
      simpa only [hacc, hr, he] using hi.sel id rt h
    · rw [hh] at h; cases h
  · intro id l c h
    rcases hc id with hh | hh
    · rw [hh] at h
      simpa only [hacc, hr, he] using hi.srv id l c h
    · rw [hh] at h; cases h
  · intro id h
    rcases hc id with hh | hh
    · rw [hh] at h
      simpa only [hacc] using hi.nor id h
    · rw [hh] at h; cases h
  · intro id h
    simp only [hr, he] at h
    simpa only [hacc] using hi.known id h
  · intro id sv rt h hs
    rw [hacc] at h
    rw [h1, h2]
    exact hi.regs id sv rt h hs
  · intro k
    simp only [hacc, hr, h1]
    exact hi.opened k
  · intro k kind
    simp only [hacc, he, h2]
    exact hi.closed k kind

/-- Something is told of a connection. -/
theorem inv_poll {s s' : Sys} {T : List (Op × Seen)} (hi : Inv s T) (hd : ((accepted T).map (·.1)).Nodup) (id : Nat) (env : Distribute.Env)
    (failure : Error) (a : Polled) (seen : Seen) (sv : Serving) (hsv : (id, sv) ∈ accepted T)
    (hO : ∀ k, value k s'.opened = value k s.opened + if routedTo k sv && !reached id T && reaches seen.out then 1 else 0)
    (hC : ∀ k kind, value (k, kind) s'.closed =
      value (k, kind) s.closed + if routedTo k sv && !ended id kind T && ends kind seen.out then 1 else 0)
    (hO' : ∀ k, (Assoc.lookup k s'.opened).isSome = (Assoc.lookup k s.opened).isSome)
    (hC' : ∀ k, (Assoc.lookup k s'.closed).isSome = (Assoc.lookup k s.closed).isSome)
    (hc : ∀ j, j ≠ id → Assoc.lookup j s'.conns = Assoc.lookup j s.conns)
    (hid : Assoc.lookup id s'.conns = none ∨ ∃ rt c, sv.select = some rt ∧ Assoc.lookup id s'.conns = some (.serving rt.labels c) ∧
      seen.out = .pending ∧ ∀ kind, ended id kind T = false) :
    Inv s' (T ++ [(.poll id env failure a, seen)]) := by
  have hr : ∀ j, reached j (T ++ [(.poll id env failure a, seen)]) = (reached j T || (j == id && reaches seen.out)) := by
    intro j
    rw [reached_snoc]
    simp only [polls, Bool.beq_comm]
  have he : ∀ j k, ended j k (T ++ [(.poll id env failure a, seen)]) = (ended j k T || (j == id && ends k seen.out)) := by
    intro j k
    rw [ended_snoc]
    simp only [polls, Bool.beq_comm]
  have hacc : accepted (T ++ [(.poll id env failure a, seen)]) = accepted T := accepted_snoc_not T _ (by intro _ _ h; cases h)
  constructor
  · intro j rt h
    by_cases hj : j = id
    · subst hj
      rcases hid with hh | ⟨rt', c, -, hh, -⟩ <;> rw [hh] at h <;> cases h
    · rw [hc j hj] at h
      obtain ⟨sv', h1, h2, h3, h4, h5⟩ := hi.sel j rt h
      have hjb : (j == id) = false := by simpa using hj
      refine ⟨sv', by rw [hacc]; exact h1, h2, h3, by rw [hr, h4, hjb]; rfl, fun k => by rw [he, h5, hjb]; rfl⟩
  · intro j l c h
    by_cases hj : j = id
    · subst hj
      rcases hid with hh | ⟨rt', c', h1, hh, h2, h3⟩
      · rw [hh] at h; cases h
      · rw [hh] at h
        cases h
        refine ⟨sv, rt', by rw [hacc]; exact hsv, h1, rfl, ?_, ?_⟩
        · rw [hr, h2]; simp [reaches]
        · intro k; rw [he, h3, h2]; simp [ends]
    · rw [hc j hj] at h
      obtain ⟨sv', rt, h1, h2, h3, h4, h5⟩ := hi.srv j l c h
      have hjb : (j == id) = false := by simpa using hj
      exact ⟨sv', rt, by rw [hacc]; exact h1, h2, h3, by rw [hr, h4, hjb]; rfl, fun k => by rw [he, h5, hjb]; rfl⟩
  · intro j h
    by_cases hj : j = id
    · subst hj
      rcases hid with hh | ⟨rt', c, -, hh, -⟩ <;> rw [hh] at h <;> cases h
    · rw [hc j hj] at h
      rw [hacc]
      exact hi.nor j h
  · intro j h
    rw [hacc]
    by_cases hj : j = id
    · subst hj; exact ⟨sv, hsv⟩
    · have hjb : (j == id) = false := by simpa using hj
      simp only [hr, he, hjb, Bool.false_and, Bool.or_false] at h
      exact hi.known j h
  · intro j sv' rt h hs
    rw [hacc] at h
    rw [hO']
    refine ⟨(hi.regs j sv' rt h hs).1, fun kind => ?_⟩
    rw [hC']
    exact (hi.regs j sv' rt h hs).2 kind
  · intro k
    simp only [hacc, hr]
    rw [count_or _ hd id sv hsv (routedTo k) (fun j => reached j T) (reaches seen.out), hO, hi.opened k]
  · intro k kind
    simp only [hacc, he]
    rw [count_or _ hd id sv hsv (routedTo k) (fun j => ended j kind T) (ends kind seen.out), hC, hi.closed k kind]

/-- A connection is given to a service. -/
theorem inv_accept {s : Sys} {T : List (Op × Seen)} (hi : Inv s T) (id : Nat) (sv : Serving) (hm : Made sv)
    (hd : ((accepted (T ++ [(.accept id sv, (step s (.accept id sv)).2)])).map (·.1)).Nodup) :
    Inv (step s (.accept id sv)).1 (T ++ [(.accept id sv, (step s (.accept id sv)).2)]) := by
  have hacc : accepted (T ++ [(.accept id sv, (step s (.accept id sv)).2)]) = accepted T ++ [(id, sv)] := by simp [accepted]
  rw [hacc] at hd
  have hnew : ∀ sv', (id, sv') ∉ accepted T := by
    intro sv' h
    rw [List.map_append, List.nodup_append] at hd
    exact hd.2.2 id (List.mem_map.2 ⟨_, h, rfl⟩) id (by simp) rfl
  have hr : ∀ j, reached j (T ++ [(.accept id sv, (step s (.accept id sv)).2)]) = reached j T := by
    intro j; rw [reached_snoc]; simp [polls]
  have he : ∀ j k, ended j k (T ++ [(.accept id sv, (step s (.accept id sv)).2)]) = ended j k T := by
    intro j k; rw [ended_snoc]; simp [polls]
  have hnr : reached id T = false := by
    cases h : reached id T with
    | false => rfl
    | true => obtain ⟨sv', h'⟩ := hi.known id (.inl h); exact absurd h' (hnew sv')
  have hne : ∀ k, ended id k T = false := by
    intro k
    cases h : ended id k T with
    | false => rfl
    | true => obtain ⟨sv', h'⟩ := hi.known id (.inr ⟨k, h⟩); exact absurd h' (hnew sv')
  have hself : ∀ j c, Assoc.lookup j (step s (.accept id sv)).1.conns = some c →
      (j = id ∧ c = match sv.select with | none => .noRoute | some rt => .selected rt) ∨ (j ≠ id ∧ Assoc.lookup j s.conns = some c) := by
    intro j c h
    simp only [step] at h
    cases hs : sv.select with
    | none =>
      simp only [hs, Assoc.lookup_put] at h
      by_cases hj : j = id
      · rw [if_pos hj] at h; cases h; exact .inl ⟨hj, rfl⟩
      · rw [if_neg hj] at h; exact .inr ⟨hj, h⟩
    | some rt =>
      simp only [hs, Assoc.lookup_put] at h
      by_cases hj : j = id
      · rw [if_pos hj] at h; cases h; exact .inl ⟨hj, rfl⟩
      · rw [if_neg hj] at h; exact .inr ⟨hj, h⟩
  have hvO : ∀ k, value k (step s (.accept id sv)).1.opened = value k s.opened := by
    intro k
    simp only [step]
    cases sv.select with
    | none => rfl
    | some rt => exact value_create _ _ _ _
  have hvC : ∀ k, value k (step s (.accept id sv)).1.closed = value k s.closed := by
    intro k
    simp only [step]
    cases sv.select with
    | none => rfl
    | some rt => simp only [Sys.metrics, List.foldl_cons, List.foldl_nil, value_create]
  constructor
  · intro j rt h
    rcases hself j _ h with ⟨rfl, h'⟩ | ⟨hj, h⟩
    · refine ⟨sv, by rw [hacc]; simp, hm, ?_, by rw [hr]; exact hnr, fun k => by rw [he]; exact hne k⟩
      cases hs : sv.select with
      | none => rw [hs] at h'; cases h'
      | some rt' => rw [hs] at h'; cases h'; rfl
    · obtain ⟨sv', h1, h2, h3, h4, h5⟩ := hi.sel j rt h
      exact ⟨sv', by rw [hacc]; simp [h1], h2, h3, by rw [hr]; exact h4, fun k => by rw [he]; exact h5 k⟩
  · intro j l c h
    rcases hself j _ h with ⟨rfl, h'⟩ | ⟨hj, h⟩
    · cases hs : sv.select with
      | none => rw [hs] at h'; cases h'
      | some rt' => rw [hs] at h'; cases h'
    · obtain ⟨sv', rt, h1, h2, h3, h4, h5⟩ := hi.srv j l c h
      exact ⟨sv', rt, by rw [hacc]; simp [h1], h2, h3, by rw [hr]; exact h4, fun k => by rw [he]; exact h5 k⟩
  · intro j h
    rcases hself j _ h with ⟨rfl, h'⟩ | ⟨hj, h⟩
    · refine ⟨sv, by rw [hacc]; simp, ?_⟩
      cases hs : sv.select with
      | none => rfl
      | some rt' => rw [hs] at h'; cases h'
    · obtain ⟨sv', h1, h2⟩ := hi.nor j h
      exact ⟨sv', by rw [hacc]; simp [h1], h2⟩
  · intro j h
    simp only [hr, he] at h
    obtain ⟨sv', h⟩ := hi.known j h
    exact ⟨sv', by rw [hacc]; simp [h]⟩
  · intro j sv' rt h hs
    rw [hacc, List.mem_append] at h
    have hk : ∀ kind : Option Kind, kind = none ∨ kind = some .forbidden ∨ kind = some .invalidBackend ∨ kind = some .invalidPolicy ∨
        kind = some .unexpected := by
      intro kind
      rcases kind with _ | kind
      · simp
      · cases kind <;> simp
    rcases h with h | h
    · obtain ⟨h1, h2⟩ := hi.regs j sv' rt h hs
      simp only [step]
      cases sv.select with
      | none => exact ⟨h1, h2⟩
      | some rt' =>
        simp only [Sys.metrics, List.foldl_cons, List.foldl_nil, some_create, Bool.or_eq_true]
        exact ⟨.inl h1, fun kind => .inl (.inl (.inl (.inl (.inl (h2 kind)))))⟩
    · simp only [List.mem_singleton, Prod.mk.injEq] at h
      obtain ⟨rfl, rfl⟩ := h
      simp only [step, hs, Sys.metrics, List.foldl_cons, List.foldl_nil, some_create, Bool.or_eq_true, decide_eq_true_eq, Prod.mk.injEq,
        true_and]
      refine ⟨.inr trivial, fun kind => ?_⟩
      rcases hk kind with h | h | h | h | h <;> simp [h]
  · intro k
    rw [hvO, hacc, List.countP_append, hi.opened k]
    simp only [hr, List.countP_singleton, hnr, Bool.and_false, Bool.false_eq_true, if_false, Nat.add_zero]
  · intro k kind
    rw [hvC, hacc, List.countP_append, hi.closed k kind]
    simp only [he, List.countP_singleton, hne, Bool.and_false, Bool.false_eq_true, if_false, Nat.add_zero]

theorem routed_iff {sv : Serving} {rt : Matched} (hs : sv.select = some rt) (k : Key) : routedTo k sv = decide (k = rt.labels.key) := by
  simp only [routedTo, hs]
  by_cases h : k = rt.labels.key
  · simp [h]
  · simp only [h, decide_false, beq_eq_false_iff_ne]
    exact fun e => h e.symm

theorem kind_wrap (c : Cause) (e : Error) (h : c = .logical ∨ ∃ r, c = .route r) : Kind.of (c :: e) = Kind.of e := by
  rcases h with rfl | ⟨r, rfl⟩ <;> rfl

theorem kind_told (ref : Meta) (r : Option Error) :
    ((r.map (Cause.route ref :: ·)).map (Cause.logical :: ·)).map Kind.of = (r.map (Cause.route ref :: ·)).map Kind.of := by
  cases r <;> rfl

theorem inv_step {s : Sys} {T : List (Op × Seen)} (hi : Inv s T) (op : Op) (hm : ∀ j sv, op = .accept j sv → Made sv)
    (hd : ((accepted (T ++ [(op, (step s op).2)])).map (·.1)).Nodup) : Inv (step s op).1 (T ++ [(op, (step s op).2)]) := by
  cases op with
  | accept id sv => exact inv_accept hi id sv (hm id sv rfl) hd
  | drop id =>
    refine inv_quiet hi _ (by intro _ _ h; cases h) (by intro j h; simp [polls] at h) rfl rfl fun j => ?_
    simp only [step, Assoc.lookup_erase]
    by_cases hj : j = id
    · simp [hj]
    · simp [hj]
  | poll id env failure a =>
    have hd' : ((accepted T).map (·.1)).Nodup := by
      rw [accepted_snoc_not T _ (by intro _ _ h; cases h)] at hd; exact hd
    cases hl : Assoc.lookup id s.conns with
    | none =>
      have e : step s (.poll id env failure a) = (s, ⟨.nothing, none⟩) := by simp only [step, hl]
      rw [e]
      exact inv_quiet hi _ (by intro _ _ h; cases h) (by intro j _; exact ⟨rfl, fun _ => rfl⟩) rfl rfl fun j => .inl rfl
    | some c =>
      cases c with
      | noRoute =>
        obtain ⟨sv, h1, h2⟩ := hi.nor id hl
        have e : step s (.poll id env failure a) = ({ s with conns := Assoc.erase id s.conns }, ⟨.closed (some [.logical, .noRoute]), none⟩) := by
          simp only [step, hl]
        rw [e]
        have hk : ∀ k, routedTo k sv = false := by intro k; simp only [routedTo, h2]
        refine inv_poll hi hd' id env failure a _ sv h1 (fun k => ?_) (fun k kind => ?_) (fun _ => rfl) (fun _ => rfl) (fun j hj => ?_) (.inl ?_)
        · simp [hk]
        · simp [hk]
        · simp only [Assoc.lookup_erase, if_neg hj]
        · simp only [Assoc.lookup_erase, if_pos]
      | serving l c =>
        obtain ⟨sv, rt, h1, h2, rfl, h4, h5⟩ := hi.srv id l c hl
        have e : step s (.poll id env failure a) = ((pollServing s id rt.labels a).1, ⟨(pollServing s id rt.labels a).2, none⟩) := by
          simp only [step, hl]
        rw [e]
        have hfin : ∀ r : Option Error, Inv (finish s id rt.labels r).1
            (T ++ [(.poll id env failure a, ⟨(finish s id rt.labels r).2, none⟩)]) := by
          intro r
          have hreg := (hi.regs id sv rt h1 h2).2
          refine inv_poll hi hd' id env failure a _ sv h1 (fun k => ?_) (fun k kind => ?_) (fun _ => rfl) (fun k => ?_) (fun j hj => ?_) (.inl ?_)
          · simp [finish, Sys.incClosed, h4]
          · simp only [finish, Sys.incClosed]
            rw [value_inc _ _ _ (hreg _)]
            simp only [h5, ends, kind_told, routed_iff h2]
            congr 1
            by_cases hk : k = rt.labels.key
            · by_cases hk2 : kind = (r.map (Cause.route rt.labels.route :: ·)).map Kind.of
              · subst hk; subst hk2; simp
              · subst hk
                simp only [Prod.mk.injEq, true_and, hk2, if_false]
                simp only [decide_true, Bool.not_false, Bool.true_and, beq_iff_eq]
                rw [if_neg (fun e => hk2 e.symm)]
            · simp [hk]
          · simp only [finish, Sys.incClosed, some_inc]
          · simp only [finish, Sys.incClosed, Assoc.lookup_erase, if_neg hj]
          · simp only [finish, Sys.incClosed, Assoc.lookup_erase, if_pos]
        cases a with
        | ok => exact hfin none
        | err er => exact hfin (some er)
        | pending =>
          refine inv_poll hi hd' id env failure .pending _ sv h1 (fun k => ?_) (fun k kind => ?_) (fun _ => rfl) (fun _ => rfl) (fun j hj => rfl)
            (.inr ⟨rt, c, h2, hl, rfl, h5⟩)
          · simp [pollServing, h4]
          · simp [pollServing, ends]
      | selected rt =>
        obtain ⟨sv, h1, hmade, h2, h4, h5⟩ := hi.sel id rt hl
        obtain ⟨hrO, hrC⟩ := hi.regs id sv rt h1 h2
        have hopen : ∀ k, value k (inc rt.labels.key s.opened) = value k s.opened +
            if routedTo k sv && !reached id T then 1 else 0 := by
          intro k
          rw [value_inc _ _ _ hrO, routed_iff h2, h4]
          by_cases hk : k = rt.labels.key <;> simp [hk]
        have hfin : ∀ (s0 : Sys) (r : Option Error) (sent : Option Concrete), s0.opened = inc rt.labels.key s.opened → s0.closed = s.closed →
            (∀ j, j ≠ id → Assoc.lookup j s0.conns = Assoc.lookup j s.conns) →
            Inv (finish s0 id rt.labels r).1 (T ++ [(.poll id env failure a, ⟨(finish s0 id rt.labels r).2, sent⟩)]) := by
          intro s0 r sent e1 e2 e3
          refine inv_poll hi hd' id env failure a _ sv h1 (fun k => ?_) (fun k kind => ?_) (fun k => ?_) (fun k => ?_) (fun j hj => ?_) (.inl ?_)
          · simp only [finish, Sys.incClosed, e1, hopen, reaches, Bool.and_true]
          · simp only [finish, Sys.incClosed, e2]
            rw [value_inc _ _ _ (hrC _)]
            simp only [h5, ends, kind_told, routed_iff h2]
            congr 1
            by_cases hk : k = rt.labels.key
            · by_cases hk2 : kind = (r.map (Cause.route rt.labels.route :: ·)).map Kind.of
              · subst hk; subst hk2; simp
              · subst hk
                simp only [Prod.mk.injEq, true_and, hk2, if_false]
                simp only [decide_true, Bool.not_false, Bool.true_and, beq_iff_eq]
                rw [if_neg (fun e => hk2 e.symm)]
            · simp [hk]
          · simp only [finish, Sys.incClosed, e1, some_inc]
          · simp only [finish, Sys.incClosed, e2, some_inc]
          · simp only [finish, Sys.incClosed, Assoc.lookup_erase, if_neg hj, e3 j hj]
          · simp only [finish, Sys.incClosed, Assoc.lookup_erase, if_pos]
        rcases poll_selected (valid_of_made hmade h2) hl env failure a with ⟨i, b, -, -, e⟩ | ⟨c, -, e⟩ | ⟨hf, i, b, -, -, e⟩
        · rw [e]
          refine inv_quiet hi _ (by intro _ _ h; cases h) (by intro j _; exact ⟨rfl, fun _ => rfl⟩) rfl rfl fun j => ?_
          simp only [Assoc.lookup_erase]
          by_cases hj : j = id
          · simp [hj]
          · simp [hj]
        · rw [e]
          exact hfin (s.incOpen rt.labels) (some [c]) none rfl rfl (fun _ _ => rfl)
        · rw [e]
          have e3 : ∀ j, j ≠ id → Assoc.lookup j (Assoc.put id (Conn.serving rt.labels b.concrete) s.conns) = Assoc.lookup j s.conns := by
            intro j hj; simp only [Assoc.lookup_put, if_neg hj]
          cases a with
          | ok => exact hfin _ none (some b.concrete) rfl rfl e3
          | err er => exact hfin _ (some er) (some b.concrete) rfl rfl e3
          | pending =>
            refine inv_poll hi hd' id env failure .pending _ sv h1 (fun k => ?_) (fun k kind => ?_) (fun k => ?_) (fun k => rfl) e3
              (.inr ⟨rt, b.concrete, h2, ?_, rfl, h5⟩)
            · simp only [pollServing, Sys.incOpen, hopen, told, reaches, Bool.and_true]
            · simp [pollServing, told, ends, Sys.incOpen]
            · simp only [pollServing, Sys.incOpen, some_inc]
            · simp only [pollServing, Assoc.lookup_put, if_pos]

theorem trace_append (s : Sys) (ops ops' : List Op) : trace s (ops ++ ops') = trace s ops ++ trace (after s ops) ops' := by
  induction ops generalizing s with
  | nil => rfl
  | cons op ops ih =>
    simp only [List.cons_append, trace, ih]
    rfl

theorem inv_after (ops : List Op) (hm : ∀ j sv, .accept j sv ∈ ops → Made sv)
    (hd : ((accepted (trace init ops)).map (·.1)).Nodup) : Inv (after init ops) (trace init ops) := by
  induction ops using snoc_induction with
  | nil =>
    constructor <;> simp [after, init, trace, accepted, reached, ended, Assoc.lookup, value]
  | snoc ops op ih =>
    have et : trace init (ops ++ [op]) = trace init ops ++ [(op, (step (after init ops) op).2)] := by rw [trace_append]; rfl
    have ea : after init (ops ++ [op]) = (step (after init ops) op).1 := by simp [after, List.foldl_append]
    rw [et] at hd ⊢
    rw [ea]
    refine inv_step (ih (fun j sv h => hm j sv (by simp [h])) ?_) op (fun j sv h => hm j sv (by simp [h])) hd
    have : (accepted (trace init ops)).Sublist (accepted (trace init ops ++ [(op, (step (after init ops) op).2)])) := by
      unfold accepted
      rw [List.filterMap_append]
      exact List.sublist_append_left _ _
    exact (this.map _).nodup hd

/-- **C106.** A route's counter of opened connections is the number of connections given to routes with equal labels whose route
could be made ready, and its counters of closed ones are the numbers of those that ended without error and with errors of each
kind.  Each connection counts once in each, however often and in whatever order the futures of connections are polled. -/
theorem C106_counts (ops : List Op) (hm : ∀ j sv, .accept j sv ∈ ops → Made sv)
    (hd : ((accepted (trace init ops)).map (·.1)).Nodup) (k : Key) :
    value k (after init ops).opened = ((accepted (trace init ops)).countP fun a => routedTo k a.2 && reached a.1 (trace init ops)) ∧
    ∀ kind, value (k, kind) (after init ops).closed =
      (accepted (trace init ops)).countP fun a => routedTo k a.2 && ended a.1 kind (trace init ops) :=
  ⟨(inv_after ops hm hd).opened k, fun kind => (inv_after ops hm hd).closed k kind⟩

end Verif.OutboundTcp
