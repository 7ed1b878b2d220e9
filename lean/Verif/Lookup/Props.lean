import Verif.Addr.Props
import Verif.Lookup.Watch
import Verif.Outbound.DiscoverProps

/-!
# C118: the configuration of an outbound destination is what the control plane last said
-/

namespace Verif.Lookup

open Verif Verif.Outbound Verif.Outbound.Spec Verif.StreamWatch
open Verif.ClientPolicy (ClientPolicy ApiPolicy)
open Verif.Profiles (Profile ApiProfile)
open Verif.ApiResolve (SockAddr)

/-! ## Specification -/

/-- What the lookup of the profile hears. -/
def profileEvents (ops : List Op) : List (Ev ApiProfile) :=
  ops.filterMap fun o => match o with | .profile e => some e | _ => none

/-- What the lookup of the policy hears. -/
def policyEvents (ops : List Op) : List (Ev ApiPolicy) :=
  ops.filterMap fun o => match o with | .policy e => some e | _ => none

/-- A possible history: each lookup hears what it may hear, and the receivers are kept. -/
structure Told (ops : List Op) : Prop where
  profile : History inboundRecover (Watch.init none) (profileEvents ops)
  policy : History outboundRecover (Watch.init none) (policyEvents ops)
  profileHeld : Ev.drop ∉ profileEvents ops
  policyHeld : Ev.drop ∉ policyEvents ops

/-- The last message with a profile, if profiles are looked up for the address. -/
def lastProfile (g : Cfg) (ops : List Op) : Option ApiProfile :=
  if g.allowed then delivered (profileEvents ops) else none

/-- The last message with a policy. -/
def lastPolicy (ops : List Op) : Option ApiPolicy := delivered (policyEvents ops)

/-- Both lookups have an answer. -/
def Answered (g : Cfg) (ops : List Op) : Prop :=
  ¬ Undecided outboundRecover (policyEvents ops) ∧
    (g.allowed = true → ¬ Undecided inboundRecover (profileEvents ops))

/-- The control plane has no policy, or does not serve policies. -/
def NoPolicyFor (ops : List Op) : Prop :=
  Refused outboundRecover (policyEvents ops) .notFound ∨ Refused outboundRecover (policyEvents ops) .unimplemented

/-- The control plane says that the lookup of the policy is wrong. -/
def WrongLookup (ops : List Op) : Prop :=
  Refused outboundRecover (policyEvents ops) .invalidArgument ∨ Refused outboundRecover (policyEvents ops) .failedPrecondition

/-- A policy for a destination that has none: a connection goes to the endpoint its profile names, or else to where it was
going; in ingress mode it is balanced over the service the profile names if it names no endpoint. -/
def MadeFor (g : Cfg) (profile : Option Profile) (q : ClientPolicy) : Prop :=
  match g.mode with
  | .sidecar orig => ∃ a md, EndpointOf orig profile a md ∧ AllTo q g.conf (.forward a md)
  | .ingress => ∃ p, profile = some p ∧
      (∀ a md, p.endpoint = some (a, md) → AllTo q g.conf (.forward a md)) ∧
      (∀ a, p.endpoint = none → p.addr = some a → AllTo q g.conf (.balance (.peakEwma 10000000000 30000000) a.display)) ∧
      (p.endpoint = none → p.addr = none → q = ClientPolicy.empty g.conf.detectTimeout)

/-! ## Lemmas -/

theorem profileEvents_append (a b : List Op) : profileEvents (a ++ b) = profileEvents a ++ profileEvents b := by
  simp [profileEvents]

theorem policyEvents_append (a b : List Op) : policyEvents (a ++ b) = policyEvents a ++ policyEvents b := by
  simp [policyEvents]

theorem Told.of_append {a b : List Op} (h : Told (a ++ b)) : Told a := by
  obtain ⟨h1, h2, h3, h4⟩ := h
  rw [profileEvents_append] at h1 h3
  rw [policyEvents_append] at h2 h4
  exact ⟨History.of_append h1, History.of_append h2, fun hm => h3 (List.mem_append_left _ hm),
    fun hm => h4 (List.mem_append_left _ hm)⟩

theorem run_snoc' (g : Cfg) (ops : List Op) (o : Op) : World.run g (ops ++ [o]) = (World.run g ops).step g o := by
  simp [World.run]

/-- The raw watches. -/
abbrev rawProfile (ops : List Op) : Watch ApiProfile := (Watch.init none).run inboundRecover (profileEvents ops)
abbrev rawPolicy (ops : List Op) : Watch ApiPolicy := (Watch.init none).run outboundRecover (policyEvents ops)

theorem join_watches (g : Cfg) (w : World) : (w.join g).profile = w.profile ∧ (w.join g).policy = w.policy := by
  unfold World.join
  (repeat' split) <;> exact ⟨rfl, rfl⟩

theorem follow_watches (w : World) : w.follow.profile = w.profile ∧ w.follow.policy = w.policy := by
  unfold World.follow
  (repeat' split) <;> exact ⟨rfl, rfl⟩

theorem run_watches (g : Cfg) (ops : List Op) :
    (World.run g ops).profile = (if g.allowed then some (vmap g.profileOf (rawProfile ops)) else none) ∧
    (World.run g ops).policy = vmap g.policyOf (rawPolicy ops) := by
  induction ops using snoc_induction with
  | nil => exact ⟨rfl, rfl⟩
  | snoc ops o ih =>
    obtain ⟨h1, h2⟩ := ih
    rw [run_snoc']
    cases o with
    | profile e =>
      refine ⟨?_, ?_⟩
      · show (World.run g ops).profile.map _ = _
        rw [h1]
        have : profileEvents (ops ++ [.profile e]) = profileEvents ops ++ [e] := by simp [profileEvents]
        show _ = (if g.allowed then some (vmap g.profileOf ((Watch.init none).run inboundRecover _)) else none)
        rw [this, run_snoc]
        split
        · simp only [Option.map_some]; rw [← vmap_step]
        · rfl
      · show (World.run g ops).policy = _
        have : policyEvents (ops ++ [.profile e]) = policyEvents ops := by simp [policyEvents]
        rw [h2, rawPolicy, rawPolicy, this]
    | policy e =>
      refine ⟨?_, ?_⟩
      · show (World.run g ops).profile = _
        have : profileEvents (ops ++ [.policy e]) = profileEvents ops := by simp [profileEvents]
        rw [h1, rawProfile, rawProfile, this]
      · show (World.run g ops).policy.step _ _ = _
        have : policyEvents (ops ++ [.policy e]) = policyEvents ops ++ [e] := by simp [policyEvents]
        show _ = vmap g.policyOf ((Watch.init none).run outboundRecover _)
        rw [h2, this, run_snoc, ← vmap_step]
    | join =>
      have e1 : profileEvents (ops ++ [.join]) = profileEvents ops := by simp [profileEvents]
      have e2 : policyEvents (ops ++ [.join]) = policyEvents ops := by simp [policyEvents]
      rw [rawProfile, rawPolicy, e1, e2]
      exact ⟨(join_watches g _).1.trans h1, (join_watches g _).2.trans h2⟩
    | follow =>
      have e1 : profileEvents (ops ++ [.follow]) = profileEvents ops := by simp [profileEvents]
      have e2 : policyEvents (ops ++ [.follow]) = policyEvents ops := by simp [policyEvents]
      rw [rawProfile, rawPolicy, e1, e2]
      exact ⟨(follow_watches _).1.trans h1, (follow_watches _).2.trans h2⟩

theorem Told.knownProfile {ops : List Op} (h : Told ops) : Known inboundRecover (profileEvents ops) (rawProfile ops) :=
  known _ _ h.profile h.profileHeld

theorem Told.knownPolicy {ops : List Op} (h : Told ops) : Known outboundRecover (policyEvents ops) (rawPolicy ops) :=
  known _ _ h.policy h.policyHeld

/-- What the watches hold. -/
theorem profile_value (g : Cfg) {ops : List Op} (h : Told ops) :
    (World.run g ops).profile.bind (·.value) = (lastProfile g ops).map g.profileOf := by
  rw [(run_watches g ops).1]
  unfold lastProfile
  split
  · simp [vmap, h.knownProfile.value]
  · rfl

theorem policy_value (g : Cfg) {ops : List Op} (h : Told ops) :
    (World.run g ops).policy.value = (lastPolicy ops).map g.policyOf := by
  rw [(run_watches g ops).2]
  simp [vmap, h.knownPolicy.value, lastPolicy]

open Classical in
/-- The profile's answer, if there is one. -/
theorem profile_answer (g : Cfg) {ops : List Op} (h : Told ops) :
    (World.run g ops).profileAnswer =
      (if g.allowed = true ∧ Undecided inboundRecover (profileEvents ops) then none
       else some ((lastProfile g ops).map g.profileOf) : Option (Option Profile)) := by
  unfold World.profileAnswer
  rw [(run_watches g ops).1]
  unfold lastProfile
  by_cases ha : g.allowed = true
  · simp only [ha, if_true, true_and]
    cases hd : delivered (profileEvents ops) with
    | some m =>
      rw [looked_ok h.knownProfile g.profileOf m hd, if_neg (fun hu => by simp [hu.1] at hd)]
      rfl
    | none =>
      rcases refused_or_undecided inboundRecover _ hd with ⟨c, hc⟩ | hu
      · rw [looked_error h.knownProfile g.profileOf c hc, if_neg]
        · rfl
        · intro hu
          have := hu.2 c hc.2.2
          simp [hc.2.1] at this
      · rw [looked_none h.knownProfile g.profileOf hu, if_pos hu]
        rfl
  · simp [ha]

/-- Which answers refuse a policy. -/
theorem refused_codes {ops : List Op} {c : Code} (h : Refused outboundRecover (policyEvents ops) c) :
    NoPolicyFor ops ∨ WrongLookup ops := by
  rcases ((C61_recovery_policies c).2.1).1 h.2.1 with rfl | rfl | rfl | rfl
  · exact .inr (.inl h)
  · exact .inr (.inr h)
  · exact .inl (.inl h)
  · exact .inl (.inr h)

/-- The policy made from a profile. -/
def Cfg.make (g : Cfg) : Profile → ClientPolicy :=
  match g.mode with
  | .sidecar orig => endpointPolicy g.conf orig
  | .ingress => ingressPolicy g.conf

theorem make_madeFor (g : Cfg) (p : Profile) : MadeFor g (some p) (g.make p) := by
  unfold MadeFor Cfg.make
  cases g.mode with
  | sidecar orig =>
    obtain ⟨d, a, md, hd, -, he, ha⟩ := C74_without_a_policy g.conf orig (some p) (.status .notFound) (.inl rfl)
    cases hd
    exact ⟨a, md, he, ha⟩
  | ingress =>
    refine ⟨p, rfl, fun a md he => ?_, fun a he ha => ?_, fun he ha => ?_⟩
    · simp only [ingressPolicy, he]; exact forward_allTo _ _ _ _
    · simp only [ingressPolicy, he, ha]; exact balance_allTo _ _ _ _
    · simp only [ingressPolicy, he, ha]

/-- What is settled, and why. -/
def Why (g : Cfg) (ops : List Op) : Joined → Prop
  | .found => lastPolicy ops ≠ none
  | .synth f q => NoPolicyFor ops ∧ lastProfile g ops ≠ none ∧ f = g.make ∧
      ∃ m, (Ev.opened m ∈ profileEvents ops ∨ Ev.item m ∈ profileEvents ops) ∧ q = g.make (g.profileOf m)
  | .fallback q => NoPolicyFor ops ∧ lastProfile g ops = none ∧
      (g.allowed = true → ¬ Undecided inboundRecover (profileEvents ops)) ∧ ∃ orig, g.mode = .sidecar orig ∧
      q = forwardPolicy g.conf (.default "fallback".toList) orig defaultMetadata
  | .failed => WrongLookup ops ∨ (g.mode = .ingress ∧ NoPolicyFor ops ∧ lastProfile g ops = none ∧
      (g.allowed = true → ¬ Undecided inboundRecover (profileEvents ops)))

theorem heard {U : Type} (es : List (Ev U)) (m : U) (h : delivered es = some m) : Ev.opened m ∈ es ∨ Ev.item m ∈ es := by
  induction es using snoc_induction with
  | nil => simp [delivered] at h
  | snoc es e ih =>
    rw [delivered_snoc] at h
    cases e <;> simp_all
    all_goals
      rcases ih with h | h
      · exact .inl (.inl h)
      · exact .inr h

theorem Refused.append {ops : List Op} {o : List Op} {c : Code} (ht : Told (ops ++ o))
    (h : Refused outboundRecover (policyEvents ops) c) :
    policyEvents o = [] ∧ Refused outboundRecover (policyEvents (ops ++ o)) c := by
  have hp := ht.policy
  have hd := ht.policyHeld
  rw [policyEvents_append] at hp hd
  have := nothing_after outboundRecover _ _ hp hd (.failed c) h.2.2 ⟨c, h.2.1, .inl rfl⟩
  refine ⟨this, ?_⟩
  rw [policyEvents_append, this, List.append_nil]
  exact h

theorem NoPolicyFor.append {ops o : List Op} (ht : Told (ops ++ o)) (h : NoPolicyFor ops) : NoPolicyFor (ops ++ o) :=
  h.elim (fun h => .inl (h.append ht).2) (fun h => .inr (h.append ht).2)

theorem WrongLookup.append {ops o : List Op} (ht : Told (ops ++ o)) (h : WrongLookup ops) : WrongLookup (ops ++ o) :=
  h.elim (fun h => .inl (h.append ht).2) (fun h => .inr (h.append ht).2)

theorem lastPolicy_append {ops o : List Op} (h : lastPolicy ops ≠ none) : lastPolicy (ops ++ o) ≠ none := by
  unfold lastPolicy at *
  rw [policyEvents_append, delivered_append]
  cases hd : delivered (policyEvents o) <;> simp [h]

theorem lastProfile_append {g : Cfg} {ops o : List Op} (h : lastProfile g ops ≠ none) : lastProfile g (ops ++ o) ≠ none := by
  unfold lastProfile at *
  rw [profileEvents_append, delivered_append]
  by_cases ha : g.allowed = true
  · simp only [ha, if_true] at *
    cases hd : delivered (profileEvents o) <;> simp [h]
  · simp [ha] at h

/-- An answer without a profile is for good. -/
theorem noProfile_append {g : Cfg} {ops o : List Op} (ht : Told (ops ++ o)) (h : lastProfile g ops = none)
    (hu : g.allowed = true → ¬ Undecided inboundRecover (profileEvents ops)) :
    lastProfile g (ops ++ o) = none ∧ (g.allowed = true → ¬ Undecided inboundRecover (profileEvents (ops ++ o))) := by
  unfold lastProfile at *
  by_cases ha : g.allowed = true
  · simp only [ha, if_true, forall_const] at *
    rcases refused_or_undecided inboundRecover _ h with ⟨c, hc⟩ | hn
    · have hp := ht.profile
      have hd := ht.profileHeld
      rw [profileEvents_append] at hp hd
      have := nothing_after inboundRecover _ _ hp hd (.failed c) hc.2.2 ⟨c, hc.2.1, .inl rfl⟩
      rw [profileEvents_append, this, List.append_nil]
      exact ⟨h, hu⟩
    · exact absurd hn hu
  · simp [ha]

theorem Why.append {g : Cfg} {ops o : List Op} {j : Joined} (ht : Told (ops ++ o)) (h : Why g ops j) : Why g (ops ++ o) j := by
  cases j with
  | found => exact lastPolicy_append h
  | synth f q =>
    obtain ⟨h1, h2, h3, m, h4, h5⟩ := h
    refine ⟨h1.append ht, lastProfile_append h2, h3, m, ?_, h5⟩
    rw [profileEvents_append]
    exact h4.imp (List.mem_append_left _) (List.mem_append_left _)
  | fallback q =>
    obtain ⟨h1, h2, h3, h4⟩ := h
    obtain ⟨h2', h3'⟩ := noProfile_append ht h2 h3
    exact ⟨h1.append ht, h2', h3', h4⟩
  | failed =>
    rcases h with h | ⟨h0, h1, h2, h3⟩
    · exact .inl (h.append ht)
    · obtain ⟨h2', h3'⟩ := noProfile_append ht h2 h3
      exact .inr ⟨h0, h1.append ht, h2', h3'⟩

/-- The decision, once both have answered. -/
theorem resolve_cases (g : Cfg) {ops : List Op} (h : Answered g ops) (ht : Told ops) :
    ∃ l, looked (World.run g ops).policy = some l ∧
      Why g ops (settle (g.resolve ((lastProfile g ops).map g.profileOf) (toLooked l))) := by
  rw [(run_watches g ops).2]
  cases hd : lastPolicy ops with
  | some m =>
    refine ⟨_, looked_ok ht.knownPolicy g.policyOf m hd, ?_⟩
    have : g.resolve ((lastProfile g ops).map g.profileOf) (toLooked (.ok (g.policyOf m))) =
        .found ((lastProfile g ops).map g.profileOf) (g.policyOf m) := by
      unfold Cfg.resolve toLooked
      cases g.mode <;> rfl
    rw [this]
    show lastPolicy ops ≠ none
    simp [hd]
  | none =>
    rcases refused_or_undecided outboundRecover _ hd with ⟨c, hc⟩ | hu
    · refine ⟨_, looked_error ht.knownPolicy g.policyOf c hc, ?_⟩
      have hcode := ((C61_recovery_policies c).2.1).1 hc.2.1
      unfold Cfg.resolve
      have hs : ∀ m, lastProfile g ops = some m → Ev.opened m ∈ profileEvents ops ∨ Ev.item m ∈ profileEvents ops := by
        intro m hm
        unfold lastProfile at hm
        split at hm
        · exact heard _ _ hm
        · cases hm
      cases hm : g.mode with
      | sidecar orig =>
        simp only [toLooked, Outbound.resolve]
        rcases hcode with rfl | rfl | rfl | rfl
        · exact .inl (.inl hc)
        · exact .inl (.inr hc)
        all_goals
          simp only [hasNoPolicy, if_true]
          cases hp : lastProfile g ops with
          | some m =>
            refine ⟨by first | exact .inl hc | exact .inr hc, by simp [hp], ?_, m, hs m hp, ?_⟩
            · simp [Cfg.make, hm]
            · simp [Cfg.make, hm]
          | none => exact ⟨by first | exact .inl hc | exact .inr hc, hp, h.2, orig, hm, rfl⟩
      | ingress =>
        simp only [toLooked, Outbound.ingressResolve]
        rcases hcode with rfl | rfl | rfl | rfl
        · exact .inl (.inl hc)
        · exact .inl (.inr hc)
        all_goals
          simp only [hasNoPolicy, if_true]
          cases hp : lastProfile g ops with
          | some m =>
            refine ⟨by first | exact .inl hc | exact .inr hc, by simp [hp], ?_, m, hs m hp, ?_⟩
            · simp [Cfg.make, hm]
            · simp [Cfg.make, hm]
          | none => exact .inr ⟨hm, by first | exact .inl hc | exact .inr hc, hp, h.2⟩
    · exact absurd hu h.1

/-- A lookup that is polled before both have answered goes on; after that it is over. -/
theorem join_cases (g : Cfg) {ops : List Op} (ht : Told ops) (hj : (World.run g ops).joined = none) :
    (¬ Answered g ops → (World.run g (ops ++ [.join])).joined = none) ∧
    (Answered g ops → ∃ j, (World.run g (ops ++ [.join])).joined = some j ∧ Why g ops j) := by
  classical
  have hstep : World.run g (ops ++ [.join]) = (World.run g ops).join g := run_snoc' g ops .join
  rw [hstep]
  unfold World.join
  rw [hj, profile_answer g ht]
  refine ⟨fun hn => ?_, fun ha => ?_⟩
  · by_cases hp : g.allowed = true ∧ Undecided inboundRecover (profileEvents ops)
    · simp [hp, hj]
    · have hu : Undecided outboundRecover (policyEvents ops) := by
        apply Classical.byContradiction
        intro hu
        exact hn ⟨hu, fun h1 h2 => hp ⟨h1, h2⟩⟩
      have : looked (World.run g ops).policy = none := by
        rw [(run_watches g ops).2]; exact looked_none ht.knownPolicy g.policyOf hu
      simp [hp, this, hj]
  · have hp : ¬ (g.allowed = true ∧ Undecided inboundRecover (profileEvents ops)) := fun hp => ha.2 hp.1 hp.2
    obtain ⟨l, hl, hw⟩ := resolve_cases g ha ht
    rw [if_neg hp, hl]
    exact ⟨_, rfl, hw⟩

/-- What has been settled is settled, and for a reason. -/
theorem why (g : Cfg) (ops : List Op) (ht : Told ops) (j : Joined) (hj : (World.run g ops).joined = some j) : Why g ops j := by
  induction ops using snoc_induction generalizing j with
  | nil => cases hj
  | snoc ops o ih =>
    have ht' := ht.of_append
    cases o with
    | profile e => rw [run_snoc'] at hj; exact (ih ht' j hj).append ht
    | policy e => rw [run_snoc'] at hj; exact (ih ht' j hj).append ht
    | join =>
      cases hn : (World.run g ops).joined with
      | some j' =>
        have : World.run g (ops ++ [.join]) = World.run g ops := by
          rw [run_snoc']; show World.join g _ = _; unfold World.join; rw [hn]
        rw [this] at hj
        exact (ih ht' j hj).append ht
      | none =>
        obtain ⟨h1, h2⟩ := join_cases g ht' hn
        by_cases ha : Answered g ops
        · obtain ⟨j', e, hw⟩ := h2 ha
          rw [hj] at e
          cases e
          exact hw.append ht
        · rw [h1 ha] at hj; cases hj
    | follow =>
      have hstep : World.run g (ops ++ [.follow]) = (World.run g ops).follow := run_snoc' g ops .follow
      rw [hstep] at hj
      unfold World.follow at hj
      rw [profile_value g ht'] at hj
      split at hj
      · rename_i f q p hs hp
        cases hj
        obtain ⟨h1, h2, h3, -⟩ := ih ht' _ hs
        cases hl : lastProfile g ops with
        | none => exact absurd hl h2
        | some m =>
          rw [hl] at hp
          cases hp
          have hm : delivered (profileEvents ops) = some m := by
            unfold lastProfile at hl
            split at hl
            · exact hl
            · cases hl
          subst h3
          exact Why.append ht (j := .synth g.make (g.make (g.profileOf m))) ⟨h1, h2, rfl, m, heard _ _ hm, rfl⟩
      · exact (ih ht' j hj).append ht

/-- Settled once, settled for ever. -/
theorem joined_step (g : Cfg) (w : World) (o : Op) (h : w.joined ≠ none) : (w.step g o).joined ≠ none := by
  cases o with
  | profile e => exact h
  | policy e => exact h
  | join =>
    show (w.join g).joined ≠ none
    unfold World.join
    split
    · exact h
    · rename_i hn; exact absurd hn h
  | follow =>
    show w.follow.joined ≠ none
    unfold World.follow
    split
    · simp
    · exact h

theorem joined_append (g : Cfg) (ops o : List Op) (h : (World.run g ops).joined ≠ none) :
    (World.run g (ops ++ o)).joined ≠ none := by
  induction o using snoc_induction with
  | nil => simpa using h
  | snoc o x ih =>
    rw [← List.append_assoc, run_snoc']
    exact joined_step g _ x ih

/-- A lookup that both have answered is over as soon as it is polled. -/
theorem joined_after (g : Cfg) (pre post : List Op) (ht : Told (pre ++ .join :: post)) (ha : Answered g pre) :
    ∃ j, (World.run g (pre ++ .join :: post)).joined = some j ∧ Why g (pre ++ .join :: post) j := by
  have e : pre ++ .join :: post = (pre ++ [.join]) ++ post := by simp
  have hne : (World.run g (pre ++ [.join])).joined ≠ none := by
    cases hn : (World.run g pre).joined with
    | some j => exact joined_append g pre [.join] (by simp [hn])
    | none =>
      obtain ⟨j, hj, -⟩ := (join_cases g ht.of_append hn).2 ha
      simp [hj]
  have := joined_append g _ post hne
  rw [← e] at this
  cases hj : (World.run g (pre ++ .join :: post)).joined with
  | none => exact absurd hj this
  | some j => exact ⟨j, rfl, why g _ ht j hj⟩

theorem not_refused_of_policy {ops o : List Op} (h : lastPolicy ops ≠ none) : ∀ c, ¬ Refused outboundRecover (policyEvents (ops ++ o)) c :=
  fun _ hr => lastPolicy_append (o := o) h hr.1

theorem not_noPolicy_of_policy {ops o : List Op} (h : lastPolicy ops ≠ none) : ¬ NoPolicyFor (ops ++ o) :=
  fun hn => hn.elim (not_refused_of_policy h _) (not_refused_of_policy h _)

theorem not_wrong_of_policy {ops o : List Op} (h : lastPolicy ops ≠ none) : ¬ WrongLookup (ops ++ o) :=
  fun hn => hn.elim (not_refused_of_policy h _) (not_refused_of_policy h _)

/-- One lookup is refused with one status. -/
theorem not_both {ops : List Op} (ht : Told ops) (h1 : NoPolicyFor ops) (h2 : WrongLookup ops) : False := by
  have one : ∀ c c', Refused outboundRecover (policyEvents ops) c → Refused outboundRecover (policyEvents ops) c' → c = c' := by
    intro c c' h h'
    have e1 := ht.knownPolicy.refused c h.2.2 h.2.1
    have e2 := ht.knownPolicy.refused c' h'.2.2 h'.2.1
    rw [e1] at e2
    cases e2
    rfl
  rcases h1 with h1 | h1 <;> rcases h2 with h2 | h2 <;> cases one _ _ h1 h2

/-! ## Theorems -/

/-- As long as the policy's lookup has no answer, or the profile's if there is one, so has who asked: failures that may pass are
not reported, however often the lookup is polled. -/
theorem C118_waits_for_both (g : Cfg) (ops : List Op) (ht : Told ops) (h : ¬ Answered g ops) :
    (World.run g ops).outcome = .waiting := by
  have : (World.run g ops).joined = none := by
    apply Classical.byContradiction
    intro hn
    apply h
    cases hj : (World.run g ops).joined with
    | none => exact absurd hj hn
    | some j =>
      clear hn h
      induction ops using snoc_induction generalizing j with
      | nil => cases hj
      | snoc ops o ih =>
        have keep : Answered g ops → Answered g (ops ++ [o]) := by
          rintro ⟨h1, h2⟩
          refine ⟨fun hu => h1 ⟨?_, fun c hc => hu.2 c ?_⟩, fun ha hu => h2 ha ⟨?_, fun c hc => hu.2 c ?_⟩⟩
          · have := hu.1
            rw [policyEvents_append, delivered_append] at this
            cases hd : delivered (policyEvents [o]) <;> simp [hd] at this
            exact this
          · rw [policyEvents_append]; exact List.mem_append_left _ hc
          · have := hu.1
            rw [profileEvents_append, delivered_append] at this
            cases hd : delivered (profileEvents [o]) <;> simp [hd] at this
            exact this
          · rw [profileEvents_append]; exact List.mem_append_left _ hc
        cases hn : (World.run g ops).joined with
        | some j' => exact keep (ih ht.of_append j' hn)
        | none =>
          cases o with
          | profile e =>
            rw [run_snoc'] at hj
            have : (World.run g ops).joined = some j := hj
            rw [hn] at this; cases this
          | policy e =>
            rw [run_snoc'] at hj
            have : (World.run g ops).joined = some j := hj
            rw [hn] at this; cases this
          | follow =>
            rw [run_snoc'] at hj
            have : (World.run g ops).follow.joined = some j := hj
            simp [World.follow, hn] at this
          | join =>
            by_cases ha : Answered g ops
            · exact keep ha
            · rw [(join_cases g ht.of_append hn).1 ha] at hj
              cases hj
  simp [World.outcome, this]

/-- If there is a policy by the time both lookups have an answer, the configuration is from then on what the control plane said
last: the last policy (an unreadable one is the policy that fails everything), and the last profile, if any. -/
theorem C118_policy_is_the_last_said (g : Cfg) (pre post : List Op) (ht : Told (pre ++ .join :: post)) (ha : Answered g pre)
    (hp : lastPolicy pre ≠ none) :
    ∃ m, lastPolicy (pre ++ .join :: post) = some m ∧
      (World.run g (pre ++ .join :: post)).outcome =
        .ready ⟨(lastProfile g (pre ++ .join :: post)).map g.profileOf, g.policyOf m⟩ := by
  obtain ⟨j, hj, hw⟩ := joined_after g pre post ht ha
  cases hl : lastPolicy (pre ++ .join :: post) with
  | none => exact absurd hl (lastPolicy_append hp)
  | some m =>
    refine ⟨m, rfl, ?_⟩
    cases j with
    | found => simp [World.outcome, hj, policy_value g ht, hl, profile_value g ht]
    | synth f q => exact absurd hw.1 (not_noPolicy_of_policy hp)
    | fallback q => exact absurd hw.1 (not_noPolicy_of_policy hp)
    | failed =>
      rcases hw with hw | ⟨-, hw, -⟩
      · exact absurd hw (not_wrong_of_policy hp)
      · exact absurd hw (not_noPolicy_of_policy hp)

theorem lastPolicy_none_of_noPolicy {ops : List Op} (h : NoPolicyFor ops) : lastPolicy ops = none :=
  h.elim (·.1) (·.1)

/-- If the control plane has no policy but a profile, the configuration is the last profile, and a policy made from one of the
profiles it has sent. -/
theorem C118_without_a_policy_the_profile (g : Cfg) (pre post : List Op) (ht : Told (pre ++ .join :: post))
    (hn : NoPolicyFor pre) (hp : lastProfile g pre ≠ none) :
    ∃ l m q, lastProfile g (pre ++ .join :: post) = some l ∧
      (World.run g (pre ++ .join :: post)).outcome = .ready ⟨some (g.profileOf l), q⟩ ∧ MadeFor g (some (g.profileOf m)) q ∧
      (Ev.opened m ∈ profileEvents (pre ++ .join :: post) ∨ Ev.item m ∈ profileEvents (pre ++ .join :: post)) := by
  have ha : Answered g pre := by
    refine ⟨fun hu => ?_, fun h hu => hp (by simp [lastProfile, h, hu.1])⟩
    rcases hn with h | h <;> have := hu.2 _ h.2.2 <;> simp [h.2.1] at this
  have hn' := hn.append ht
  obtain ⟨j, hj, hw⟩ := joined_after g pre post ht ha
  have hp' := lastProfile_append (o := .join :: post) hp
  cases hl : lastProfile g (pre ++ .join :: post) with
  | none => exact absurd hl hp'
  | some l =>
    cases j with
    | found => exact absurd (lastPolicy_none_of_noPolicy hn') hw
    | synth f q =>
      obtain ⟨-, -, -, m, hm, rfl⟩ := hw
      exact ⟨l, m, _, rfl, by simp [World.outcome, hj, profile_value g ht, hl], make_madeFor g _, hm⟩
    | fallback q => exact absurd hw.2.1 hp'
    | failed =>
      rcases hw with hw | ⟨-, -, hw, -⟩
      · exact absurd hw (fun h => not_both ht hn' h)
      · exact absurd hw hp'

/-- It is made from the last one as soon as the task that makes them has run. -/
theorem C118_made_policies_catch_up (g : Cfg) (pre mid post : List Op)
    (ht : Told (pre ++ .join :: (mid ++ .follow :: post))) (hn : NoPolicyFor pre) (hp : lastProfile g pre ≠ none)
    (hq : profileEvents post = []) :
    ∃ l q, lastProfile g (pre ++ .join :: (mid ++ .follow :: post)) = some l ∧
      (World.run g (pre ++ .join :: (mid ++ .follow :: post))).outcome = .ready ⟨some (g.profileOf l), q⟩ ∧
      MadeFor g (some (g.profileOf l)) q := by
  have e0 : pre ++ .join :: (mid ++ .follow :: post) = (pre ++ .join :: mid) ++ [.follow] ++ post := by simp
  rw [e0] at ht ⊢
  generalize hA : pre ++ .join :: mid = A at *
  have htA : Told A := ht.of_append.of_append
  have haP : Answered g pre := by
    refine ⟨fun hu => ?_, fun h hu => hp (by simp [lastProfile, h, hu.1])⟩
    rcases hn with h | h <;> have := hu.2 _ h.2.2 <;> simp [h.2.1] at this
  obtain ⟨j, hj, hw⟩ := joined_after g pre mid (by rw [hA]; exact htA) haP
  rw [hA] at hj hw
  have hnA : NoPolicyFor A := by rw [← hA]; exact hn.append (by rw [hA]; exact htA)
  have hpA : lastProfile g A ≠ none := by rw [← hA]; exact lastProfile_append hp
  cases hl : lastProfile g A with
  | none => exact absurd hl hpA
  | some l =>
    have hs : ∃ q, j = .synth g.make q := by
      cases j with
      | found => exact absurd (lastPolicy_none_of_noPolicy hnA) hw
      | synth f q => obtain ⟨-, -, rfl, -⟩ := hw; exact ⟨q, rfl⟩
      | fallback q => exact absurd hw.2.1 hpA
      | failed =>
        rcases hw with hw | ⟨-, -, hw, -⟩
        · exact absurd hw (fun h => not_both htA hnA h)
        · exact absurd hw hpA
    obtain ⟨q, rfl⟩ := hs
    have hstay : ∀ post, Told (A ++ [.follow] ++ post) → profileEvents post = [] →
        lastProfile g (A ++ [.follow] ++ post) = some l ∧
        (World.run g (A ++ [.follow] ++ post)).joined = some (.synth g.make (g.make (g.profileOf l))) := by
      intro post
      induction post using snoc_induction with
      | nil =>
        intro ht _
        simp only [List.append_nil] at ht ⊢
        refine ⟨?_, ?_⟩
        · unfold lastProfile at *
          rw [profileEvents_append]
          simpa [profileEvents] using hl
        · rw [run_snoc']
          show (World.follow _).joined = _
          simp [World.follow, hj, profile_value g htA, hl]
      | snoc post x ih =>
        intro ht hq
        rw [profileEvents_append] at hq
        obtain ⟨hq1, hq2⟩ := List.append_eq_nil_iff.1 hq
        rw [← List.append_assoc] at ht ⊢
        obtain ⟨il, ij⟩ := ih ht.of_append hq1
        refine ⟨?_, ?_⟩
        · unfold lastProfile at *
          rw [profileEvents_append, hq2, List.append_nil]
          exact il
        · rw [run_snoc']
          cases x with
          | profile e => simp [profileEvents] at hq2
          | policy e => exact ij
          | join =>
            show (World.join g _).joined = _
            unfold World.join
            rw [ij]
            exact ij
          | follow =>
            show (World.follow _).joined = _
            have hv := profile_value g ht.of_append
            rw [il] at hv
            unfold World.follow
            rw [ij, hv]
            rfl
    obtain ⟨h1, h2⟩ := hstay post ht hq
    exact ⟨l, g.make (g.profileOf l), h1, by
      have hv := profile_value g ht
      rw [h1] at hv
      unfold World.outcome
      rw [h2, hv]
      rfl, make_madeFor g _⟩

/-- If the control plane has neither a policy nor a profile, a connection goes where it was going, as to an endpoint that is not
meshed; in ingress mode the lookup fails. -/
theorem C118_with_neither (g : Cfg) (pre post : List Op) (ht : Told (pre ++ .join :: post)) (hn : NoPolicyFor pre)
    (hp : lastProfile g pre = none) (hu : g.allowed = true → ¬ Undecided inboundRecover (profileEvents pre)) :
    (∀ orig, g.mode = .sidecar orig → ∃ q, (World.run g (pre ++ .join :: post)).outcome = .ready ⟨none, q⟩ ∧
      AllTo q g.conf (.forward orig defaultMetadata)) ∧
    (g.mode = .ingress → (World.run g (pre ++ .join :: post)).outcome = .failed) := by
  have ha : Answered g pre := by
    refine ⟨fun hu => ?_, hu⟩
    rcases hn with h | h <;> have := hu.2 _ h.2.2 <;> simp [h.2.1] at this
  have hn' := hn.append ht
  obtain ⟨hp', -⟩ := noProfile_append ht hp hu
  obtain ⟨j, hj, hw⟩ := joined_after g pre post ht ha
  cases j with
  | found => exact absurd (lastPolicy_none_of_noPolicy hn') hw
  | synth f q => exact absurd hp' hw.2.1
  | fallback q =>
    obtain ⟨-, -, -, orig, ho, rfl⟩ := hw
    refine ⟨fun orig' ho' => ⟨_, by simp only [World.outcome, hj]; rfl, ?_⟩, fun hi => by rw [ho] at hi; cases hi⟩
    rw [ho] at ho'
    cases ho'
    exact forward_allTo _ _ _ _
  | failed =>
    rcases hw with hw | ⟨hi, -⟩
    · exact absurd hw (fun h => not_both ht hn' h)
    · exact ⟨fun orig ho => (by rw [hi] at ho; cases ho), fun _ => (by simp [World.outcome, hj])⟩

/-- A lookup fails exactly if the control plane says that it is wrong, or in ingress mode if there is nothing to use; and then
only once the profile's lookup has an answer. -/
theorem C118_fails_iff (g : Cfg) (ops : List Op) (ht : Told ops) :
    (World.run g ops).outcome = .failed ↔
      ∃ pre post, ops = pre ++ .join :: post ∧ (g.allowed = true → ¬ Undecided inboundRecover (profileEvents pre)) ∧
        (WrongLookup pre ∨ (g.mode = .ingress ∧ NoPolicyFor pre ∧ lastProfile g pre = none)) := by
  constructor
  · intro h
    have hj : (World.run g ops).joined = some .failed := by
      unfold World.outcome at h
      (repeat' split at h) <;> first | assumption | cases h
    clear h
    induction ops using snoc_induction with
    | nil => cases hj
    | snoc ops o ih =>
      have ext : (World.run g ops).joined = some .failed → ∃ pre post, ops ++ [o] = pre ++ .join :: post ∧
          (g.allowed = true → ¬ Undecided inboundRecover (profileEvents pre)) ∧
          (WrongLookup pre ∨ (g.mode = .ingress ∧ NoPolicyFor pre ∧ lastProfile g pre = none)) := by
        intro h
        obtain ⟨pre, post, rfl, h1⟩ := ih ht.of_append h
        exact ⟨pre, post ++ [o], by simp, h1⟩
      rw [run_snoc'] at hj
      cases o with
      | profile e => exact ext hj
      | policy e => exact ext hj
      | follow =>
        have hj' : (World.follow (World.run g ops)).joined = some .failed := hj
        unfold World.follow at hj'
        split at hj'
        · cases hj'
        · exact ext hj'
      | join =>
        cases hn : (World.run g ops).joined with
        | some j =>
          have : (World.run g ops).join g = World.run g ops := by unfold World.join; rw [hn]
          have hj' : ((World.run g ops).join g).joined = some .failed := hj
          rw [this] at hj'
          exact ext hj'
        | none =>
          obtain ⟨h1, h2⟩ := join_cases g ht.of_append hn
          rw [run_snoc'] at h1 h2
          by_cases ha : Answered g ops
          · obtain ⟨j, e, hw⟩ := h2 ha
            rw [hj] at e
            cases e
            exact ⟨ops, [], rfl, ha.2, hw.imp id (fun ⟨a, b, c, _⟩ => ⟨a, b, c⟩)⟩
          · rw [h1 ha] at hj; cases hj
  · rintro ⟨pre, post, rfl, hu, hw⟩
    rcases hw with hw | ⟨hi, hn, hp⟩
    · have ha : Answered g pre := by
        refine ⟨fun hu => ?_, hu⟩
        rcases hw with h | h <;> have := hu.2 _ h.2.2 <;> simp [h.2.1] at this
      have hw' := hw.append ht
      have hl : lastPolicy (pre ++ .join :: post) = none := hw'.elim (·.1) (·.1)
      obtain ⟨j, hj, hy⟩ := joined_after g pre post ht ha
      cases j with
      | found => exact absurd hl hy
      | synth f q => exact (not_both ht hy.1 hw').elim
      | fallback q => exact (not_both ht hy.1 hw').elim
      | failed => simp [World.outcome, hj]
    · exact (C118_with_neither g pre post ht hn hp hu).2 hi

/-- C118. Profiles are looked up for exactly the addresses whose name is within one of the configured suffixes, or whose IP address is in one
of the configured networks; and messages are read whole, a profile with the port of the address it was asked for. -/
theorem C118_where_profiles_are_looked_up (g : Cfg) :
    (∀ n nl, g.addr = .name n → Dns.DnsName n.name nl → (∀ s, .name s ∈ g.allow.names → ∃ sl, Dns.DnsName s sl) →
      (g.allowed = true ↔ ∃ sfx ∈ g.allow.names, Addr.Covers sfx nl)) ∧
    (∀ a, g.addr = .socket a → (g.allowed = true ↔ ∃ net ∈ g.allow.nets, ServerPolicy.Within net a.ip)) ∧
    (∀ n, g.addr = .name n → ∀ m, g.profileOf m = Profiles.convertProfile g.parsers m n.port) ∧
    (∀ a, g.addr = .socket a → ∀ m, g.profileOf m = Profiles.convertProfile g.parsers m a.port) ∧
    (∀ m, g.policyOf m = ClientPolicy.received g.env g.overrides g.timeout m) := by
  refine ⟨fun n nl h hn hs => ?_, fun a h => ?_, fun n h m => ?_, fun a h m => ?_, fun m => rfl⟩
  · rw [Cfg.allowed, h]; exact Addr.C35_name_matches_iff _ _ _ hn hs
  · rw [Cfg.allowed, h]; exact Addr.C35_ip_matches_iff _ _
  · rw [Cfg.profileOf, h]; rfl
  · rw [Cfg.profileOf, h]; rfl

/-- The policy of an address whose profile is not to be looked up depends on nothing that a profile's lookup would hear, and its
configuration has no profile. -/
theorem C118_profiles_not_allowed (g : Cfg) (ha : g.allowed = false) (ops : List Op) :
    (World.run g ops).outcome =
      (World.run g (ops.filter fun o => match o with | .profile _ => false | _ => true)).outcome ∧
    ∀ d, (World.run g ops).outcome = .ready d → d.profile = none := by
  have hnone : ∀ ops, (World.run g ops).profile = none := fun ops => by rw [(run_watches g ops).1]; simp [ha]
  have hsame : ∀ ops, World.run g ops =
      World.run g (ops.filter fun o => match o with | .profile _ => false | _ => true) := by
    intro ops
    induction ops using snoc_induction with
    | nil => rfl
    | snoc ops o ih =>
      rw [List.filter_append, run_snoc']
      cases o with
      | profile e =>
        have hx : ∀ w : World, w.profile = none → w.step g (.profile e) = w := by
          rintro ⟨p, q, j⟩ rfl
          rfl
        rw [hx _ (hnone ops)]
        show _ = World.run g (_ ++ [])
        rw [List.append_nil, ← ih]
      | _ =>
        show _ = World.run g (_ ++ [_])
        rw [run_snoc', ← ih]
  refine ⟨by rw [← hsame], fun d hd => ?_⟩
  unfold World.outcome at hd
  rw [hnone] at hd
  (repeat' split at hd) <;> cases hd <;> rfl

/-- The requests name the destination: the text of a name is read back as that name and port. -/
theorem C118_requests_name_the_destination (socket : Addr.SocketAddr → List Char) (token : List Char) (n : Addr.NameAddr)
    (labels : List (List Char)) (h : Dns.DnsName n.name labels) (hk : Addr.Kept n.name) (hp : n.port ≤ 65535) :
    (∃ s, (profileRequest socket token (.name n)).path = s ∧ policyTarget (.name n) = .authority s ∧
      Addr.NameAddr.parse s = .ok ⟨Dns.Name.withoutTrailingDot n.name, n.port⟩) ∧
    (profileRequest socket token (.name n)).contextToken = token ∧
    ∀ a, policyTarget (.socket a) = .addr a ∧ (profileRequest socket token (.socket a)).path = socket a :=
  ⟨⟨_, rfl, rfl, Addr.C62_text_round_trip n labels h hk hp⟩, rfl, fun _ => ⟨rfl, rfl⟩⟩

/-- Once the control plane has answered in a way that is not tried again - for a policy, that there is none any more is enough -
nothing it says later is heard: the configuration stays. -/
theorem C118_limit_frozen_after_an_answer_that_is_final (g : Cfg) (pre post : List Op) (ht : Told (pre ++ post)) (c : Code)
    (hr : c = .invalidArgument ∨ c = .failedPrecondition ∨ c = .notFound ∨ c = .unimplemented)
    (he : Ev.broke c ∈ policyEvents pre ∨ Ev.failed c ∈ policyEvents pre) :
    policyEvents post = [] ∧ lastPolicy (pre ++ post) = lastPolicy pre := by
  have hp := ht.policy
  have hd := ht.policyHeld
  rw [policyEvents_append] at hp hd
  have hc := ((C61_recovery_policies c).2.1).2 hr
  have : policyEvents post = [] := by
    rcases he with he | he
    · exact nothing_after outboundRecover _ _ hp hd _ he ⟨c, hc, .inr rfl⟩
    · exact nothing_after outboundRecover _ _ hp hd _ he ⟨c, hc, .inl rfl⟩
  exact ⟨this, by rw [lastPolicy, policyEvents_append, this, List.append_nil, lastPolicy]⟩

/-! ## Concrete cases -/

/-- A profile without anything in it. -/
def emptyProfile : ApiProfile where
  name := []
  routes := []
  retryBudget := none
  dstOverrides := []
  opaqueProtocol := false
  endpoint := none

/-- A policy nobody can read. -/
def emptyPolicy : ApiPolicy := ⟨none, none⟩

/-- The profile's lookup failing `n` times because there is none. -/
def missing : Nat → List Op
  | 0 => []
  | n + 1 => missing n ++ [.profile (.failed .notFound), .profile .tick]

theorem missing_told (n : Nat) : policyEvents (missing n) = [] ∧ Ev.drop ∉ profileEvents (missing n) ∧
    History inboundRecover (Watch.init none) (profileEvents (missing n)) ∧
    (∃ b, (rawProfile (missing n)).phase = .opening b) ∧ delivered (profileEvents (missing n)) = none ∧
    ∀ c, Ev.failed c ∈ profileEvents (missing n) → c = .notFound := by
  induction n with
  | zero => exact ⟨rfl, by simp [missing, profileEvents], .nil, ⟨none, rfl⟩, rfl, by simp [missing, profileEvents]⟩
  | succ n ih =>
    obtain ⟨h1, h2, h3, ⟨b, h4⟩, h5, h6⟩ := ih
    have e : profileEvents (missing (n + 1)) = profileEvents (missing n) ++ [.failed .notFound] ++ [.tick] := by
      rw [missing, profileEvents_append]; simp [profileEvents]
    have hs : ((Watch.init none).run inboundRecover (profileEvents (missing n) ++ [.failed .notFound])).phase =
        (match b with | some n => Phase.waitingOld n | none => Phase.waitingNew) := by
      rw [run_snoc]
      have h4 : ((Watch.init none).run inboundRecover (profileEvents (missing n))).phase = .opening b := h4
      generalize (Watch.init none).run inboundRecover (profileEvents (missing n)) = w at h4 ⊢
      obtain ⟨phase, value, p, d⟩ := w
      have : phase = .opening b := h4
      subst this
      cases b <;> rfl
    refine ⟨by rw [missing, policyEvents_append, h1]; rfl, by rw [e]; simp [h2], ?_, ?_, ?_, ?_⟩
    · rw [e]
      refine .snoc _ _ (.snoc _ _ h3 ?_) ?_
      · have : ((Watch.init none).run inboundRecover (profileEvents (missing n))).phase = .opening b := h4
        rw [this]; exact .failed _ _
      · rw [hs]
        cases b
        · exact .tickNew
        · exact .tickOld _
    · rw [rawProfile, e, run_snoc]
      generalize (Watch.init none).run inboundRecover (profileEvents (missing n) ++ [.failed .notFound]) = w at *
      obtain ⟨phase, value, p, d⟩ := w
      dsimp only at hs
      subst hs
      cases b
      · exact ⟨_, rfl⟩
      · exact ⟨_, rfl⟩
    · rw [e, delivered_snoc, delivered_snoc]; exact h5
    · intro c hc
      rw [e] at hc
      simp at hc
      exact hc.elim (h6 c) id

/-- A destination whose policy is known but whose profile does not exist is waited for as long as the control plane says so: a
profile that is not found is looked up again. -/
theorem C118_limit_a_missing_profile_is_waited_for (g : Cfg) (ha : g.allowed = true) (m : ApiPolicy) (n : Nat) :
    Told (.policy (.opened m) :: missing n ++ [.join]) ∧ lastPolicy (.policy (.opened m) :: missing n ++ [.join]) = some m ∧
    (World.run g (.policy (.opened m) :: missing n ++ [.join])).outcome = .waiting := by
  obtain ⟨h1, h2, h3, -, h5, h6⟩ := missing_told n
  have e1 : policyEvents (.policy (.opened m) :: missing n ++ [.join]) = [.opened m] := by
    show policyEvents ([.policy (.opened m)] ++ missing n ++ [.join]) = _
    rw [policyEvents_append, policyEvents_append, h1]; rfl
  have e2 : profileEvents (.policy (.opened m) :: missing n ++ [.join]) = profileEvents (missing n) := by
    show profileEvents ([.policy (.opened m)] ++ missing n ++ [.join]) = _
    rw [profileEvents_append, profileEvents_append]; simp [profileEvents]
  have ht : Told (.policy (.opened m) :: missing n ++ [.join]) := by
    refine ⟨by rw [e2]; exact h3, ?_, by rw [e2]; exact h2, by rw [e1]; simp⟩
    rw [e1]
    exact .snoc [] _ .nil (.opened _ _)
  refine ⟨ht, by rw [lastPolicy, e1]; rfl, C118_waits_for_both g _ ht ?_⟩
  rintro ⟨-, h⟩
  refine h ha ⟨by rw [e2]; exact h5, fun c hc => ?_⟩
  rw [e2] at hc
  rw [h6 c hc]
  rfl

/-- A policy that comes, is replaced, and is taken away: the replacement is kept. -/
example (g : Cfg) (ha : g.allowed = true) (m m' : ApiPolicy) (p : ApiProfile) :
    ∃ pre post, Told (pre ++ .join :: post) ∧ Answered g pre ∧ lastPolicy pre ≠ none ∧
      (World.run g (pre ++ .join :: post)).outcome = .ready ⟨some (g.profileOf p), g.policyOf m'⟩ := by
  have ht : Told ([.policy (.failed .unavailable), .profile (.opened emptyProfile), .policy .tick, .policy (.opened m)] ++
      .join :: [.policy (.item m'), .profile (.item p), .policy (.broke .notFound)]) := by
    refine ⟨?_, ?_, by simp [profileEvents], by simp [policyEvents]⟩
    · exact .snoc [_] _ (.snoc [] _ .nil (.opened _ _)) (.item _)
    · exact .snoc [_, _, _, _] _ (.snoc [_, _, _] _ (.snoc [_, _] _ (.snoc [_] _ (.snoc [] _ .nil (.failed _ _)) .tickNew)
        (.opened _ _)) (.item _)) (.broke _)
  have hA : Answered g [.policy (.failed .unavailable), .profile (.opened emptyProfile), .policy .tick, .policy (.opened m)] :=
    ⟨fun hu => (by cases hu.1), fun _ hu => (by cases hu.1)⟩
  have hp : lastPolicy [.policy (.failed .unavailable), .profile (.opened emptyProfile), .policy .tick, .policy (.opened m)] ≠
      none := by intro h; cases h
  refine ⟨_, _, ht, hA, hp, ?_⟩
  obtain ⟨x, hx, ho⟩ := C118_policy_is_the_last_said g _ _ ht hA hp
  cases hx
  rw [ho]
  simp [lastProfile, ha, profileEvents, delivered]

/-- No policy, and a profile that is replaced. -/
example (g : Cfg) (ha : g.allowed = true) (p p' : ApiProfile) :
    ∃ pre mid post, Told (pre ++ .join :: (mid ++ .follow :: post)) ∧ NoPolicyFor pre ∧ lastProfile g pre ≠ none ∧
      profileEvents post = [] ∧ lastProfile g (pre ++ .join :: (mid ++ .follow :: post)) = some p' := by
  refine ⟨[.profile (.opened p), .policy (.failed .notFound)], [.profile (.item p')], [.join], ⟨?_, ?_, ?_, ?_⟩, .inl ⟨rfl, rfl, ?_⟩,
    ?_, rfl, ?_⟩
  · exact .snoc [_] _ (.snoc [] _ .nil (.opened _ _)) (.item _)
  · exact .snoc [] _ .nil (.failed _ _)
  · simp [profileEvents]
  · simp [policyEvents]
  · simp [policyEvents]
  · simp [lastProfile, ha, profileEvents, delivered]
  · simp [lastProfile, ha, profileEvents, delivered]

/-- Neither: the profile's lookup is refused too. -/
example (g : Cfg) : ∃ pre post, Told (pre ++ .join :: post) ∧ NoPolicyFor pre ∧ lastProfile g pre = none ∧
    ¬ Undecided inboundRecover (profileEvents pre) := by
  refine ⟨[.profile (.failed .invalidArgument), .policy (.failed .unimplemented)], [], ⟨?_, ?_, ?_, ?_⟩, .inr ⟨rfl, rfl, ?_⟩, ?_, ?_⟩
  · exact .snoc [] _ .nil (.failed _ _)
  · exact .snoc [] _ .nil (.failed _ _)
  · simp [profileEvents]
  · simp [policyEvents]
  · simp [policyEvents]
  · simp [lastProfile, profileEvents, delivered]
  · intro h
    have := h.2 .invalidArgument (by simp [profileEvents])
    cases this

end Verif.Lookup
