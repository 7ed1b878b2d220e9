import Verif.Destination.Spec
import Verif.Balancer.Props
import Verif.Recover.Props

namespace Verif.Destination

open Verif.ApiResolve (SockAddr Metadata ApiUpdate mkUpdate)
open Verif.StreamWatch (Code)

variable (env : Env)

/-! ### Sets of endpoints by numbers -/

/-- The same endpoints. -/
def Matches (n : EpSet) (m : ApiResolve.EpSet) : Prop :=
  (∀ a, n (env.code a) = (m a).map env.codeMeta) ∧ ∀ x, n x ≠ none → ∃ a, env.code a = x

theorem matches_empty : Matches env EpSet.empty (fun _ => none) := ⟨fun _ => rfl, fun _ h => absurd rfl h⟩

variable {env}

theorem matches_adds (hinj : ∀ a b, env.code a = env.code b → a = b) {n : EpSet} {m : ApiResolve.EpSet} (h : Matches env n m)
    (eps : List (SockAddr × Metadata)) :
    Matches env (n.adds (eps.map fun e => (env.code e.1, env.codeMeta e.2))) (fun a => (Assoc.lookup a eps.reverse).or (m a)) := by
  induction eps using snoc_induction with
  | nil => simpa [EpSet.adds, Assoc.lookup] using h
  | snoc eps e ih =>
    obtain ⟨b, x⟩ := e
    obtain ⟨h1, h2⟩ := ih
    have key : n.adds ((eps ++ [(b, x)]).map fun e => (env.code e.1, env.codeMeta e.2)) = fun c =>
        if c = env.code b then some (env.codeMeta x) else
          n.adds (eps.map fun e => (env.code e.1, env.codeMeta e.2)) c := by
      simp [EpSet.adds, List.foldl_append]
    rw [key]
    refine ⟨fun a => ?_, fun c hc => ?_⟩
    · simp only [List.reverse_append, List.reverse_cons, List.reverse_nil, List.nil_append, List.cons_append, Assoc.lookup]
      by_cases hab : a = b
      · subst hab; simp
      · have : ¬ env.code a = env.code b := fun hc => hab (hinj _ _ hc)
        have hba : ¬ b = a := fun h => hab h.symm
        simp only [this, if_false, h1, hba]
    · by_cases hcb : c = env.code b
      · exact ⟨b, hcb.symm⟩
      · simp only [hcb, if_false] at hc
        exact h2 c hc

theorem matches_update (hinj : ∀ a b, env.code a = env.code b → a = b) {n : EpSet} {m : ApiResolve.EpSet} (h : Matches env n m)
    (u : ApiResolve.Update) : Matches env (n.update (number env u)) (m.update u) := by
  cases u with
  | reset eps =>
    have := matches_adds hinj (matches_empty env) eps
    simpa [number, EpSet.update, ApiResolve.EpSet.update] using this
  | add eps => exact matches_adds hinj h eps
  | doesNotExist => exact matches_empty env
  | remove addrs =>
    obtain ⟨h1, h2⟩ := h
    refine ⟨fun a => ?_, fun c hc => ?_⟩
    · have : env.code a ∈ addrs.map env.code ↔ a ∈ addrs := by
        simp only [List.mem_map]
        exact ⟨fun ⟨b, hb, e⟩ => hinj _ _ e ▸ hb, fun hm => ⟨a, hm, rfl⟩⟩
      simp only [number, EpSet.update, ApiResolve.EpSet.update, this]
      split
      · rfl
      · exact h1 a
    · simp only [number, EpSet.update] at hc
      split at hc
      · exact absurd rfl hc
      · exact h2 c hc

/-! ### Messages -/

theorem message_update (m : ApiResolve.EpSet) (x : Option ApiUpdate) :
    m.message env.parseUrl env.parseAuthority x =
      match mkUpdate env.parseUrl env.parseAuthority x with
      | none => m
      | some u => m.update u := by
  have := ApiResolve.C51_updates_say_what_messages_say env.parseUrl env.parseAuthority [x] m
  rw [List.foldl_cons, List.foldl_nil] at this
  rw [← this]
  unfold ApiResolve.updates
  cases hu : mkUpdate env.parseUrl env.parseAuthority x with
  | none => simp [hu]
  | some u => simp [hu]

theorem informs_iff (x : Option ApiUpdate) : informs env x =
    match mkUpdate env.parseUrl env.parseAuthority x with
    | none => false
    | some (.remove _) => false
    | some _ => true := by
  match x with
  | none => rfl
  | some (.noEndpoints true) => rfl
  | some (.noEndpoints false) => rfl
  | some (.remove addrs) =>
    simp only [informs, mkUpdate]
    split
    · rfl
    · rename_i h; split at h <;> cases h; rfl
    · rename_i h1 h; split at h
      · cases h
      · injection h with h; exact absurd h.symm (h1 _)
  | some (.add addrs labels) =>
    have key : (addrs.any fun pb => (ApiResolve.toAddrMeta env.parseUrl env.parseAuthority labels pb).isSome) =
        !(addrs.filterMap (ApiResolve.toAddrMeta env.parseUrl env.parseAuthority labels)).isEmpty := by
      induction addrs with
      | nil => rfl
      | cons p ps ih =>
        rw [List.any_cons, List.filterMap_cons, ih]
        cases ApiResolve.toAddrMeta env.parseUrl env.parseAuthority labels p <;> simp
    simp only [informs, mkUpdate, key]
    cases (addrs.filterMap (ApiResolve.toAddrMeta env.parseUrl env.parseAuthority labels)).isEmpty <;> rfl

/-- What is passed on of the first update of a session. -/
theorem matches_first (hinj : ∀ a b, env.code a = env.code b → a = b) (n : EpSet) (u : ApiResolve.Update)
    (hu : ∀ addrs, u ≠ .remove addrs) :
    Matches env (n.update (Recover.passedOn true (number env u)))
      (ApiResolve.EpSet.update (fun _ => none) u) := by
  cases u with
  | reset eps =>
    have := matches_update hinj (matches_empty env) (.reset eps)
    exact this
  | add eps =>
    have := matches_adds hinj (matches_empty env) eps
    exact this
  | doesNotExist => exact matches_empty env
  | remove addrs => exact absurd rfl (hu addrs)

/-! ### The resolution -/

theorem known_append (a b : List Event) : known env (a ++ b) = b.foldl (Known.see env) (known env a) := by
  simp [known, List.foldl_append]

/-- Statuses that are not recovered from. -/
def Rejected (c : Code) : Prop := c = .invalidArgument ∨ c = .failedPrecondition

theorem errNo_inj {c d : Code} (h : errNo c = errNo d) : c = d := by
  cases c <;> cases d <;> first | rfl | exact absurd h (by decide)

theorem recovers_iff (c : Code) : recovers (errNo c) = false ↔ Rejected c := by
  cases c <;> simp [recovers, Rejected, errNo] <;> decide

structure RInv (env : Env) (w : Recover.World) (evs : List Event) : Prop where
  set : Matches env (EpSet.described w.emitted) (known env evs).set
  fresh : ∀ s i, w.state = .connected s i → (known env evs).fresh = i
  error : ∀ s e b, w.state = .recover s (some e) b → e = Recover.eos ∨ ∃ c, e = errNo c ∧ .failed c ∈ evs

/-- Has the resolution told its consumer of an error? -/
def Dead (w : Recover.World) : Prop := ∃ s b, w.state = .recover s none b

/-- What a round comes to. -/
structure Round (env : Env) (w w' : Recover.World) (evs' : List Event) (r : Option Recover.Result) : Prop where
  inv : RInv env w' evs'
  item : ∀ u, r = some (.item u) → w'.emitted = w.emitted ++ [u]
  same : (∀ u, r ≠ some (.item u)) → w'.emitted = w.emitted
  err : ∀ e, r = some (.err e) → ∃ c, Rejected c ∧ e = errNo c ∧ .failed c ∈ evs'
  dead : Dead w' → Dead w ∨ ∃ e, r = some (.err e)
  panic : r = some .panic → Dead w

theorem see_nothing (evs : List Event) : known env (evs ++ []) = known env evs := by rw [List.append_nil]

theorem hear_emitted (w : Recover.World) (u : Update) : (w.hear u).emitted = w.emitted := by
  unfold Recover.World.hear; split <;> rfl

theorem hear_state (w : Recover.World) (u : Update) : (w.hear u).state = w.state := by
  unfold Recover.World.hear; split <;> rfl

theorem round_ok (hinj : ∀ a b, env.code a = env.code b → a = b) {w : Recover.World} {evs : List Event} (h : RInv env w evs)
    (a : Answers) (b : Recover.Answers) (hb : a.heard env w.state = some b) :
    Round env w (w.round b).1 (evs ++ a.event w.state) (w.round b).2 := by
  obtain ⟨hset, hfresh, herr⟩ := h
  cases hst : w.state with
  | disconnected bo =>
    simp only [Recover.World.round, hst, Answers.event, List.append_nil]
    exact ⟨⟨hset, by simp, by simp⟩, by simp, by simp, by simp, by simp [Dead], by simp⟩
  | backoff bo =>
    simp only [Recover.World.round, hst, Answers.event, List.append_nil]
    cases b.backoff <;>
      exact ⟨⟨hset, by simp [hst], by simp [hst]⟩, by simp, by simp, by simp, by simp [Dead, hst], by simp⟩
  | connecting s bo =>
    have hc : b.connect = (match a.connect with | .pending => .pending | .ok => .ok | .err c => .err (errNo c)) := by
      rw [hst] at hb
      unfold Answers.heard at hb
      dsimp only at hb
      split at hb
      · injection hb with hb; subst hb; rfl
      · injection hb with hb; subst hb; rfl
      · injection hb with hb; subst hb; rfl
      · split at hb
        · injection hb with hb; subst hb; rfl
        · injection hb with hb; subst hb; rfl
    simp only [Recover.World.round, hst, Answers.event]
    rw [hc]
    cases a.connect with
    | pending =>
      simp only [List.append_nil]
      exact ⟨⟨hset, by simp [hst], by simp [hst]⟩, by simp, by simp, by simp, by simp [Dead, hst], by simp⟩
    | ok =>
      refine ⟨⟨?_, ?_, by simp⟩, by simp, by simp, by simp, by simp [Dead], by simp⟩
      · rw [known_append]; exact hset
      · intro s' i' e
        rw [known_append]
        injection e with e1 e2
    | err c =>
      refine ⟨⟨?_, by simp, ?_⟩, by simp, by simp, by simp, by simp [Dead], by simp⟩
      · rw [known_append]; exact hset
      · intro s' e b' he
        injection he with h1 h2 h3
        injection h2 with h2
        exact .inr ⟨c, h2.symm, by simp⟩
  | recover s e bo =>
    cases e with
    | none =>
      simp only [Recover.World.round, hst, Answers.event, List.append_nil]
      exact ⟨⟨hset, hfresh, herr⟩, by simp, by simp, by simp, fun hd => .inl hd, fun _ => ⟨s, bo, hst⟩⟩
    | some e =>
      have hr : b.recoverable = recovers e := by
        rw [hst] at hb
        unfold Answers.heard at hb
        dsimp only at hb
        repeat' split at hb
        all_goals (injection hb with hb; subst hb; rfl)
      simp only [Recover.World.round, hst, Answers.event, List.append_nil, hr]
      cases hre : recovers e with
      | true =>
        exact ⟨⟨hset, by simp, by simp⟩, by simp, by simp, by simp, by simp [Dead], by simp⟩
      | false =>
        refine ⟨⟨hset, by simp, by simp⟩, by simp, by simp, ?_, fun _ => .inr ⟨e, rfl⟩, by simp⟩
        intro e' he
        simp only [Bool.false_eq_true, if_false, Option.some.injEq, Recover.Result.err.injEq] at he
        subst he
        rcases herr s e bo hst with h0 | ⟨c, rfl, hm⟩
        · subst h0; exact absurd hre (by decide)
        · exact ⟨c, (recovers_iff c).1 hre, rfl, hm⟩
  | connected s i =>
    have hf : (known env evs).fresh = i := hfresh s i hst
    rw [hst] at hb
    unfold Answers.heard at hb
    dsimp only at hb
    simp only [Recover.World.round, hst, Answers.event]
    cases hs : a.stream with
    | pending =>
      simp only [hs, Option.some.injEq] at hb
      subst hb
      simp only [List.append_nil]
      exact ⟨⟨hset, fun s' i' => by simp [hst]; intro _ h; rw [← h]; exact hf, by simp [hst]⟩, by simp, by simp, by simp,
        by simp [Dead, hst], by simp⟩
    | err c =>
      simp only [hs, Option.some.injEq] at hb
      subst hb
      refine ⟨⟨?_, by simp, ?_⟩, by simp, by simp, by simp, by simp [Dead], by simp⟩
      · rw [known_append]; exact hset
      · intro s' e b' he
        injection he with h1 h2 h3
        injection h2 with h2
        exact .inr ⟨c, h2.symm, by simp⟩
    | done =>
      simp only [hs, Option.some.injEq] at hb
      subst hb
      refine ⟨⟨?_, by simp, ?_⟩, by simp, by simp, by simp, by simp [Dead], by simp⟩
      · rw [known_append]; exact hset
      · intro s' e b' he
        injection he with h1 h2 h3
        injection h2 with h2
        exact .inl h2.symm
    | message m =>
      simp only [hs] at hb
      cases hu : mkUpdate env.parseUrl env.parseAuthority m with
      | none => simp [hu] at hb
      | some u =>
        simp only [hu, Option.some.injEq] at hb
        subst hb
        dsimp only
        have hmsg : ∀ x : ApiResolve.EpSet, x.message env.parseUrl env.parseAuthority m = x.update u := by
          intro x; rw [message_update, hu]
        have hin := informs_iff (env := env) m
        rw [hu] at hin
        -- the update is passed on
        have pass : ∀ (hp : i = true → ∀ addrs, u ≠ .remove addrs),
            known env (evs ++ [.said m]) =
              ⟨(if i then (fun _ => none) else (known env evs).set : ApiResolve.EpSet).update u, false⟩ ∧
            Matches env ((EpSet.described w.emitted).update (Recover.passedOn i (number env u)))
              ((if i then (fun _ => none) else (known env evs).set : ApiResolve.EpSet).update u) := by
          intro hp
          cases i with
          | true =>
            refine ⟨?_, matches_first hinj _ u (hp rfl)⟩
            have : informs env m = true := by
              rw [hin]
              cases u <;> first | rfl | exact absurd rfl (hp rfl _)
            simp [known_append, Known.see, hf, this, hmsg]
          | false =>
            refine ⟨?_, matches_update hinj hset u⟩
            simp [known_append, Known.see, hf, hmsg]
        have pass' : ∀ (hp : i = true → ∀ addrs, u ≠ .remove addrs) (w'' : Recover.World),
            w''.state = .connected s false → w''.emitted = w.emitted ++ [Recover.passedOn i (number env u)] →
            Round env w w'' (evs ++ [.said m]) (some (.item (Recover.passedOn i (number env u)))) := by
          intro hp w'' h1 h2
          obtain ⟨h3, h4⟩ := pass hp
          refine ⟨⟨?_, ?_, by simp [h1]⟩, ?_, ?_, by simp, ?_, by simp⟩
          · rw [h3, h2, Recover.described_snoc]; exact h4
          · intro s' i' e
            rw [h1] at e
            injection e with e1 e2
            rw [h3, ← e2]
          · intro u' e
            injection e with e
            injection e with e
            rw [h2, e]
          · intro e; exact absurd rfl (e _)
          · intro ⟨s', b', e⟩; rw [h1] at e; cases e
        cases i with
        | false => cases u <;> exact pass' (by simp) _ rfl rfl
        | true =>
          cases u with
          | remove addrs =>
            have hn : known env (evs ++ [.said m]) = known env evs := by
              simp [known_append, Known.see, hf, hin]
            simp only [number]
            refine ⟨⟨?_, ?_, ?_⟩, by simp, ?_, by simp, ?_, by simp⟩
            · rw [hn, hear_emitted]; exact hset
            · intro s' i' e
              rw [hear_state] at e
              rw [hn]
              exact hfresh s' i' (hst.trans e)
            · intro s' e' b' e
              rw [hear_state] at e
              cases e
            · intro _; rw [hear_emitted]
            · intro ⟨s', b', e⟩
              rw [hear_state] at e
              cases e
          | reset eps => exact pass' (by simp) _ rfl rfl
          | add eps => exact pass' (by simp) _ rfl rfl
          | doesNotExist => exact pass' (by simp) _ rfl rfl

theorem skip_ok {w : Recover.World} {evs : List Event} (h : RInv env w evs) (a : Answers)
    (hb : a.heard env w.state = none) : RInv env w (evs ++ a.event w.state) := by
  obtain ⟨hset, hfresh, herr⟩ := h
  unfold Answers.heard at hb
  dsimp only at hb
  cases hs : a.stream with
  | pending => simp [hs] at hb
  | err c => simp [hs] at hb
  | done => simp [hs] at hb
  | message m =>
    simp only [hs] at hb
    cases hu : mkUpdate env.parseUrl env.parseAuthority m with
    | some u => simp [hu] at hb
    | none =>
      simp only [hu] at hb
      split at hb
      · rename_i s i hst
        have hn : known env (evs ++ [.said m]) = known env evs := by
          have hm : ∀ x : ApiResolve.EpSet, x.message env.parseUrl env.parseAuthority m = x := by
            intro x; rw [message_update, hu]
          have hi : informs env m = false := by rw [informs_iff, hu]
          rw [known_append]
          simp only [List.foldl_cons, List.foldl_nil, Known.see, hi, hm]
          split <;> rfl
        simp only [Answers.event, hst, hs]
        refine ⟨by rw [hn]; exact hset, fun s' i' e => by rw [hn]; exact hfresh s' i' e, fun s' e' b' e => ?_⟩
        rw [hst] at e; cases e
      · cases hb

/-- What a poll comes to. -/
theorem poll_ok (hinj : ∀ a b, env.code a = env.code b → a = b) (as : List Answers) {w : Recover.World} {evs : List Event}
    (h : RInv env w evs) :
    Round env w (poll env w as).1 (evs ++ (poll env w as).2.1) (some (poll env w as).2.2) := by
  induction as generalizing w evs with
  | nil =>
    simp only [poll, List.append_nil]
    exact ⟨h, by simp, by simp, by simp, fun hd => .inl hd, by simp⟩
  | cons a as ih =>
    unfold poll
    cases hb : a.heard env w.state with
    | none =>
      dsimp only
      have := ih (skip_ok h a hb)
      rw [List.append_assoc] at this
      exact this
    | some b =>
      have hr := round_ok hinj h a b hb
      dsimp only
      cases hw : w.round b with
      | mk w' r =>
        rw [hw] at hr
        cases r with
        | some r => exact hr
        | none =>
          dsimp only at hr ⊢
          obtain ⟨g1, g2, g3, g4, g5, g6⟩ := ih hr.inv
          rw [List.append_assoc] at g1 g4
          have e := hr.same (by simp)
          have hd : Dead w' → Dead w := fun hd => (hr.dead hd).resolve_right (by simp)
          exact ⟨g1, fun u hu => by rw [g2 u hu, e], fun hu => by rw [g3 hu, e], g4,
            fun hx => (g5 hx).imp_left hd, fun hx => hd (g6 hx)⟩

end Verif.Destination
