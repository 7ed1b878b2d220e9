import Verif.Common.List
import Verif.ServerPolicy.RateLimit

/-!
# C31: local rate limits are independent per identity and capped in total
-/

namespace Verif.ServerPolicy

open Verif.HttpRoute (Str)

/-! ## Specification -/

section
variable {σ τ : Type}

/-- The state of a limiter that was asked at these times. -/
def Limiter.seen (l : Limiter σ τ) (times : List τ) : σ := times.foldl (fun s t => (l.check t s).2) l.fresh

/-- A limiter on its own, after being asked at these times, admits a request now. -/
def Limiter.Admits (l : Limiter σ τ) (times : List τ) (now : τ) : Prop := (l.check now (l.seen times)).1 = true

instance (l : Limiter σ τ) (times : List τ) (now : τ) : Decidable (l.Admits times now) :=
  inferInstanceAs (Decidable (_ = _))

/-- Those of a history that are kept, where keeping one may depend on what came before it. -/
def kept {α : Type} (p : List α → α → Prop) [∀ h a, Decidable (p h a)] (h : List α) : List α :=
  (List.range h.length).flatMap fun i => (h[i]?.filter (fun a => p (h.take i) a)).toList

/-- What a client's requests are counted against, besides the total: with its rate. -/
inductive Account where
  | override (index rps : Nat)
  | identity (id : Option Id) (rps : Nat)
  deriving DecidableEq, Repr

def Account.rps : Account → Nat
  | .override _ r => r
  | .identity _ r => r

/-- An identity with overrides has the last of them; otherwise it has its own account if there is a rate
per identity.  Clients without identity have one account together. -/
inductive HasAccount (rl : RateLimit) : Option Id → Account → Prop
  | override (id before s after) : rl.overrides = before ++ (id, s) :: after → (∀ e ∈ after, e.1 ≠ id) →
      HasAccount rl (some id) (.override s.index s.rps)
  | identity (id rps) : rl.perIdentity = some rps → (∀ e ∈ rl.overrides, some e.1 ≠ id) →
      HasAccount rl id (.identity id rps)

variable (gov : Nat → Limiter σ τ)

/-- A request is within the total: there is none, or a limiter of that rate asked for every earlier request,
admitted or not, admits it. -/
def WithinTotal (rl : RateLimit) (h : List (τ × Option Id)) (r : τ × Option Id) : Prop :=
  ∀ rps, rl.total = some rps → (gov rps).Admits (h.map Prod.fst) r.1

instance (rl : RateLimit) (h : List (τ × Option Id)) (r : τ × Option Id) : Decidable (WithinTotal gov rl h r) :=
  match e : rl.total with
  | none => isTrue (fun _ h => by simp [e] at h)
  | some rps =>
    if hr : (gov rps).Admits (h.map Prod.fst) r.1 then isTrue (fun _ h => by simp_all)
    else isFalse (fun hf => hr (hf rps e))

open Classical in
/-- A request is within its client's account: there is none, or a limiter of the account's rate asked for every
earlier request of the account that was within the total admits it. -/
def WithinAccount (rl : RateLimit) (h : List (τ × Option Id)) (r : τ × Option Id) : Prop :=
  ∀ a, HasAccount rl r.2 a → (gov a.rps).Admits
    (((kept (WithinTotal gov rl) h).filter (fun e => HasAccount rl e.2 a)).map Prod.fst) r.1

/-! ## Lemmas -/

theorem seen_snoc (l : Limiter σ τ) (ts : List τ) (t : τ) : l.seen (ts ++ [t]) = (l.check t (l.seen ts)).2 := by
  simp [Limiter.seen]

theorem kept_nil {α : Type} (p : List α → α → Prop) [∀ h a, Decidable (p h a)] : kept p [] = [] := rfl

theorem kept_snoc {α : Type} (p : List α → α → Prop) [∀ h a, Decidable (p h a)] (h : List α) (a : α) :
    kept p (h ++ [a]) = kept p h ++ if p h a then [a] else [] := by
  simp only [kept, List.length_append, List.length_cons, List.length_nil, Nat.zero_add, List.range_succ,
    List.flatMap_append, List.flatMap_cons, List.flatMap_nil, List.append_nil]
  congr 1
  · simp only [List.flatMap_def]
    congr 1
    apply List.map_congr_left
    intro i hi
    have hi : i < h.length := by simpa using hi
    rw [List.getElem?_append_left hi, List.take_append_of_le_length (by omega)]
  · simp only [List.getElem?_concat_length, List.take_left']
    by_cases hp : p h a <;> simp [hp, Option.filter]

theorem kept_sublist {α : Type} (p : List α → α → Prop) [∀ h a, Decidable (p h a)] (h : List α) :
    (kept p h).Sublist h := by
  induction h using snoc_induction with
  | nil => simp [kept_nil]
  | snoc h a ih =>
    rw [kept_snoc]
    refine List.Sublist.append ih ?_
    split <;> simp

theorem kept_mono {α : Type} (p q : List α → α → Prop) [∀ h a, Decidable (p h a)] [∀ h a, Decidable (q h a)]
    (hpq : ∀ h a, p h a → q h a) (h : List α) : (kept p h).Sublist (kept q h) := by
  induction h using snoc_induction with
  | nil => simp [kept_nil]
  | snoc h a ih =>
    rw [kept_snoc, kept_snoc]
    refine List.Sublist.append ih ?_
    by_cases hp : p h a
    · simp [hp, hpq h a hp]
    · simp [hp]

theorem lookup_reverse_iff {l : List (Id × Shared)} {id : Id} {s : Shared} :
    Assoc.lookup id l.reverse = some s ↔ ∃ before after, l = before ++ (id, s) :: after ∧ ∀ e ∈ after, e.1 ≠ id := by
  induction l using snoc_induction with
  | nil => simp [Assoc.lookup]
  | snoc l e ih =>
    obtain ⟨i, s'⟩ := e
    rw [List.reverse_append]
    simp only [List.reverse_cons, List.reverse_nil, List.nil_append, List.cons_append, Assoc.lookup]
    by_cases hi : i = id
    · subst hi
      rw [if_pos rfl]
      constructor
      · intro h; cases h; exact ⟨l, [], by simp, by simp⟩
      · rintro ⟨b, a, e, ha⟩
        rcases List.eq_nil_or_concat a with rfl | ⟨a', x, rfl⟩
        · have := List.append_inj' e rfl
          simp_all
        · exfalso
          rw [List.concat_eq_append, show b ++ (i, s) :: (a' ++ [x]) = (b ++ (i, s) :: a') ++ [x] by simp] at e
          have := (List.append_inj' e rfl).2
          simp at this
          exact ha x (by simp) (by rw [← this])
    · rw [if_neg hi, ih]
      constructor
      · rintro ⟨b, a, rfl, ha⟩
        exact ⟨b, a ++ [(i, s')], by simp, by
          intro e he; rcases List.mem_append.1 he with h | h
          · exact ha e h
          · simp at h; rw [h]; exact hi⟩
      · rintro ⟨b, a, e, ha⟩
        rcases List.eq_nil_or_concat a with rfl | ⟨a', x, rfl⟩
        · have := (List.append_inj' e rfl).2
          simp at this; exact absurd this.1 hi
        · rw [List.concat_eq_append, show b ++ (id, s) :: (a' ++ [x]) = (b ++ (id, s) :: a') ++ [x] by simp] at e
          have := (List.append_inj' e rfl).1
          exact ⟨b, a', this, fun y hy => ha y (by simp [hy])⟩

theorem lookup_reverse_none {l : List (Id × Shared)} {id : Id} :
    Assoc.lookup id l.reverse = none ↔ ∀ e ∈ l, e.1 ≠ id := by
  rw [Assoc.lookup_none_iff]; simp; grind

/-- The account as a function. -/
def accountOf (rl : RateLimit) (id : Option Id) : Option Account :=
  match rl.overrideOf id with
  | some s => some (.override s.index s.rps)
  | none => rl.perIdentity.map (.identity id ·)

theorem overrideOf_none (rl : RateLimit) (id : Option Id) :
    rl.overrideOf id = none ↔ ∀ e ∈ rl.overrides, some e.1 ≠ id := by
  cases id with
  | none => simp [RateLimit.overrideOf]
  | some id => simp only [RateLimit.overrideOf, lookup_reverse_none]; simp

theorem hasAccount_iff (rl : RateLimit) (id : Option Id) (a : Account) :
    HasAccount rl id a ↔ accountOf rl id = some a := by
  constructor
  · intro h
    cases h with
    | override id b s after e ha =>
      have : rl.overrideOf (some id) = some s := lookup_reverse_iff.2 ⟨b, after, e, ha⟩
      simp [accountOf, this]
    | identity id rps h1 h2 =>
      simp [accountOf, (overrideOf_none rl id).2 h2, h1]
  · intro h
    unfold accountOf at h
    cases ho : rl.overrideOf id with
    | some s =>
      simp only [ho, Option.some.injEq] at h
      subst h
      cases id with
      | none => simp [RateLimit.overrideOf] at ho
      | some id =>
        obtain ⟨b, after, e, ha⟩ := lookup_reverse_iff.1 ho
        exact .override id b s after e ha
    | none =>
      simp only [ho, Option.map_eq_some_iff] at h
      obtain ⟨rps, h1, rfl⟩ := h
      exact .identity id rps h1 ((overrideOf_none rl id).1 ho)

theorem after_snoc (rl : RateLimit) (h : List (τ × Option Id)) (r : τ × Option Id) :
    rl.after gov (h ++ [r]) = (rl.check gov (rl.after gov h) r.1 r.2).2 := by
  simp [RateLimit.after]

open Classical in
/-- The requests of an account that were within the total. -/
noncomputable def onAccount (rl : RateLimit) (h : List (τ × Option Id)) (a : Account) : List τ :=
  ((kept (WithinTotal gov rl) h).filter (fun e => accountOf rl e.2 = some a)).map Prod.fst

theorem onAccount_snoc (rl : RateLimit) (h : List (τ × Option Id)) (r : τ × Option Id) (a : Account) :
    onAccount gov rl (h ++ [r]) a =
      onAccount gov rl h a ++ if WithinTotal gov rl h r ∧ accountOf rl r.2 = some a then [r.1] else [] := by
  classical
  unfold onAccount
  rw [kept_snoc]
  by_cases hw : WithinTotal gov rl h r
  · by_cases ha : accountOf rl r.2 = some a <;> simp [hw, ha]
  · simp [hw]

/-- Every limiter's state is what it would be alone. -/
structure Inv (rl : RateLimit) (h : List (τ × Option Id)) (b : Buckets σ) : Prop where
  total : ∀ rps, rl.total = some rps → b.total = (gov rps).seen (h.map Prod.fst)
  identity : ∀ id rps, rl.perIdentity = some rps → rl.overrideOf id = none →
    b.identity id = (gov rps).seen (onAccount gov rl h (.identity id rps))
  shared : ∀ s, b.shared s = (gov s.rps).seen (onAccount gov rl h (.override s.index s.rps))

theorem checkTotal_iff {rl : RateLimit} {h : List (τ × Option Id)} {b : Buckets σ} (inv : Inv gov rl h b)
    (r : τ × Option Id) : (rl.checkTotal gov b r.1).1 = true ↔ WithinTotal gov rl h r := by
  unfold RateLimit.checkTotal WithinTotal
  cases ht : rl.total with
  | none => simp
  | some rps => simp [Limiter.Admits, inv.total rps ht]

theorem inv_after (rl : RateLimit) (h : List (τ × Option Id)) : Inv gov rl h (rl.after gov h) := by
  induction h using snoc_induction with
  | nil =>
    refine ⟨?_, ?_, ?_⟩
    · intro rps e; simp [RateLimit.after, RateLimit.fresh, e, Limiter.seen]
    · intro id rps e _; simp [RateLimit.after, RateLimit.fresh, e, Limiter.seen, onAccount, kept_nil]
    · intro s; simp [RateLimit.after, RateLimit.fresh, Limiter.seen, onAccount, kept_nil]
  | snoc h r ih =>
    rw [after_snoc]
    generalize rl.after gov h = b at ih
    have hc := checkTotal_iff gov ih r
    -- the total limiter is asked first
    have htot : ∀ rps, rl.total = some rps →
        (rl.checkTotal gov b r.1).2.total = (gov rps).seen ((h ++ [r]).map Prod.fst) := by
      intro rps e
      simp [RateLimit.checkTotal, e, List.map_append, seen_snoc, ih.total rps e]
    have hid : (rl.checkTotal gov b r.1).2.identity = b.identity := by
      unfold RateLimit.checkTotal; split <;> rfl
    have hsh : (rl.checkTotal gov b r.1).2.shared = b.shared := by
      unfold RateLimit.checkTotal; split <;> rfl
    unfold RateLimit.check
    generalize rl.checkTotal gov b r.1 = c at *
    obtain ⟨ok, c⟩ := c
    cases ok with
    | false =>
      have hw : ¬ WithinTotal gov rl h r := by simpa using hc
      refine ⟨htot, ?_, ?_⟩
      · intro id rps e eo
        rw [onAccount_snoc]; simp only [hw, false_and, if_false, List.append_nil]
        rw [← ih.identity id rps e eo]; exact congrFun hid id
      · intro s
        rw [onAccount_snoc]; simp only [hw, false_and, if_false, List.append_nil]
        rw [← ih.shared s]; exact congrFun hsh s
    | true =>
      have hw : WithinTotal gov rl h r := hc.1 rfl
      dsimp only at htot hid hsh ⊢
      unfold RateLimit.checkIdentity
      cases ho : rl.overrideOf r.2 with
      | some s =>
        have hacc : accountOf rl r.2 = some (.override s.index s.rps) := by simp [accountOf, ho]
        refine ⟨htot, ?_, ?_⟩
        · intro id rps e eo
          rw [onAccount_snoc]; simp only [hw, hacc]
          rw [if_neg (by simp), List.append_nil, ← ih.identity id rps e eo]
          exact congrFun hid id
        · intro s'
          rw [onAccount_snoc]; simp only [hw, hacc]
          by_cases hs : s' = s
          · subst hs
            simp [seen_snoc, hsh, ih.shared]
          · have hne : ¬ (True ∧ some (Account.override s.index s.rps) = some (.override s'.index s'.rps)) := by
              rintro ⟨_, he⟩
              simp only [Option.some.injEq, Account.override.injEq] at he
              exact hs (by cases s; cases s'; simp_all)
            rw [if_neg hne, List.append_nil, ← ih.shared s']
            simp [hs, hsh]
      | none =>
        cases hp : rl.perIdentity with
        | none =>
          have hacc : accountOf rl r.2 = none := by simp [accountOf, ho, hp]
          refine ⟨htot, ?_, ?_⟩
          · intro id rps e; simp [hp] at e
          · intro s
            rw [onAccount_snoc]; simp only [hacc]
            rw [if_neg (by simp), List.append_nil, ← ih.shared s]; exact congrFun hsh s
        | some rps =>
          have hacc : accountOf rl r.2 = some (.identity r.2 rps) := by simp [accountOf, ho, hp]
          refine ⟨htot, ?_, ?_⟩
          · intro id rps' e eo
            have : rps' = rps := by rw [hp] at e; injection e with e; exact e.symm
            subst this
            rw [onAccount_snoc]; simp only [hw, hacc]
            by_cases hs : id = r.2
            · subst hs
              simp [seen_snoc, hid, ih.identity r.2 rps' hp ho]
            · have hne : ¬ (True ∧ some (Account.identity r.2 rps') = some (.identity id rps')) := by
                rintro ⟨_, he⟩
                simp only [Option.some.injEq, Account.identity.injEq] at he
                exact hs he.1.symm
              rw [if_neg hne, List.append_nil, ← ih.identity id rps' hp eo]
              simp [hs, hid]
          · intro s
            rw [onAccount_snoc]; simp only [hacc]
            rw [if_neg (by simp), List.append_nil, ← ih.shared s]; exact congrFun hsh s

theorem withinAccount_iff (rl : RateLimit) (h : List (τ × Option Id)) (r : τ × Option Id) :
    WithinAccount gov rl h r ↔
      ∀ a, accountOf rl r.2 = some a → (gov a.rps).Admits (onAccount gov rl h a) r.1 := by
  unfold WithinAccount onAccount
  simp only [hasAccount_iff]

/-! ## Theorems -/

/-- After any history, a request is admitted exactly when it is within the total and within its client's
account.  Otherwise it is rejected with the stage that rejects it, and that stage's rate. -/
theorem C31_verdict (rl : RateLimit) (h : List (τ × Option Id)) (now : τ) (id : Option Id) :
    ((rl.check gov (rl.after gov h) now id).1 = none ↔
      WithinTotal gov rl h (now, id) ∧ WithinAccount gov rl h (now, id)) ∧
    (∀ rps, (rl.check gov (rl.after gov h) now id).1 = some (.total rps) ↔
      rl.total = some rps ∧ ¬ WithinTotal gov rl h (now, id)) ∧
    (∀ rps, (rl.check gov (rl.after gov h) now id).1 = some (.override rps) ↔
      (∃ i, HasAccount rl id (.override i rps)) ∧
        WithinTotal gov rl h (now, id) ∧ ¬ WithinAccount gov rl h (now, id)) ∧
    (∀ rps, (rl.check gov (rl.after gov h) now id).1 = some (.perIdentity rps) ↔
      HasAccount rl id (.identity id rps) ∧
        WithinTotal gov rl h (now, id) ∧ ¬ WithinAccount gov rl h (now, id)) := by
  have inv := inv_after gov rl h
  have hc := checkTotal_iff gov inv (now, id)
  simp only [withinAccount_iff, hasAccount_iff]
  have hid : (rl.checkTotal gov (rl.after gov h) now).2.identity = (rl.after gov h).identity := by
    unfold RateLimit.checkTotal; split <;> rfl
  have hsh : (rl.checkTotal gov (rl.after gov h) now).2.shared = (rl.after gov h).shared := by
    unfold RateLimit.checkTotal; split <;> rfl
  have hne : ∀ rps, rl.total = some rps → rl.total.getD 0 = rps := by intro rps e; simp [e]
  have htn : rl.total = none → WithinTotal gov rl h (now, id) := by
    intro e rps e'; simp [e] at e'
  unfold RateLimit.check
  generalize hcc : rl.checkTotal gov (rl.after gov h) now = c at *
  obtain ⟨ok, c⟩ := c
  cases ok with
  | false =>
    have hw : ¬ WithinTotal gov rl h (now, id) := by simpa using hc
    cases ht : rl.total with
    | none => exact absurd (htn ht) hw
    | some rps => simp [hw]
  | true =>
    have hw : WithinTotal gov rl h (now, id) := hc.1 rfl
    dsimp only at hid hsh ⊢
    unfold RateLimit.checkIdentity
    cases ho : rl.overrideOf id with
    | some s =>
      have hacc : accountOf rl id = some (.override s.index s.rps) := by simp [accountOf, ho]
      have hs := inv.shared s
      simp only [hacc, hw, Limiter.Admits, hsh, hs]
      by_cases hk : ((gov s.rps).check now ((gov s.rps).seen (onAccount gov rl h (.override s.index s.rps)))).1 = true <;>
        simp [hk, Account.rps] <;> grind
    | none =>
      cases hp : rl.perIdentity with
      | none =>
        have hacc : accountOf rl id = none := by simp [accountOf, ho, hp]
        simp [hacc, hw]
      | some rps =>
        have hacc : accountOf rl id = some (.identity id rps) := by simp [accountOf, ho, hp]
        have hs := inv.identity id rps hp ho
        simp only [hacc, hw, Limiter.Admits, hid, hs]
        by_cases hk : ((gov rps).check now ((gov rps).seen (onAccount gov rl h (.identity id rps)))).1 = true <;>
          simp [hk, Account.rps] <;> grind

/-- A client has at most one account. -/
theorem C31_one_account (rl : RateLimit) (id : Option Id) (a b : Account) (ha : HasAccount rl id a)
    (hb : HasAccount rl id b) : a = b := by
  rw [hasAccount_iff] at ha hb
  rw [ha] at hb; exact Option.some.inj hb

/-- Without any limit configured, nothing is ever rejected. -/
theorem C31_no_limits (h : List (τ × Option Id)) (now : τ) (id : Option Id) :
    (RateLimit.check gov {} (RateLimit.after gov {} h) now id).1 = none := by
  rw [(C31_verdict gov {} h now id).1]
  refine ⟨fun rps e => by simp at e, fun a ha => ?_⟩
  cases ha with
  | override _ b s c e => simp at e
  | identity _ _ e => simp at e

/-- With no limit in total, requests on other accounts make no difference: leaving them all out of the history
gives the same answer. -/
theorem C31_accounts_are_independent (rl : RateLimit) (ht : rl.total = none) (h : List (τ × Option Id)) (now : τ)
    (id : Option Id) (other : τ × Option Id → Bool)
    (ho : ∀ r ∈ h, other r = true → ∀ a, HasAccount rl id a → ¬ HasAccount rl r.2 a) :
    (rl.check gov (rl.after gov h) now id).1 =
      (rl.check gov (rl.after gov (h.filter (fun r => !other r))) now id).1 := by
  have hk : ∀ l : List (τ × Option Id), kept (WithinTotal gov rl) l = l := by
    intro l
    induction l using snoc_induction with
    | nil => rfl
    | snoc l a ih => rw [kept_snoc, ih, if_pos]; intro rps e; simp [ht] at e
  have heq : ∀ a, accountOf rl id = some a → onAccount gov rl h a = onAccount gov rl (h.filter (fun r => !other r)) a := by
    intro a ha
    unfold onAccount
    rw [hk, hk, List.filter_filter]
    congr 1
    apply List.filter_congr
    intro r hr
    cases hb : other r with
    | false => simp
    | true =>
      have := ho r hr hb a ((hasAccount_iff _ _ _).2 ha)
      rw [hasAccount_iff] at this
      simp [this]
  have key : ∀ l, (rl.check gov (rl.after gov l) now id).1 =
      match accountOf rl id with
      | none => none
      | some a => if (gov a.rps).Admits (onAccount gov rl l a) now then none
        else some (match a with | .override _ r => .override r | .identity _ r => .perIdentity r) := by
    intro l
    have inv := inv_after gov rl l
    unfold RateLimit.check
    have : rl.checkTotal gov (rl.after gov l) now = (true, rl.after gov l) := by
      simp [RateLimit.checkTotal, ht]
    rw [this]
    dsimp only
    unfold RateLimit.checkIdentity accountOf
    cases hov : rl.overrideOf id with
    | some s => simp [inv.shared s, Limiter.Admits, Account.rps]; rfl
    | none =>
      cases hp : rl.perIdentity with
      | none => simp
      | some rps => simp [inv.identity id rps hp hov, Limiter.Admits, Account.rps]; rfl
  rw [key, key]
  cases ha : accountOf rl id with
  | none => rfl
  | some a => simp only [heq a ha]

/-- A client is only ever rejected for its own account's requests: if its account had no earlier request and a
fresh limiter admits, only the total can reject it. -/
theorem C31_first_request_of_an_account (rl : RateLimit) (h : List (τ × Option Id)) (now : τ) (id : Option Id)
    (hfresh : ∀ rps, (gov rps).Admits [] now)
    (hnew : ∀ r ∈ h, ∀ a, HasAccount rl id a → ¬ HasAccount rl r.2 a) :
    (rl.check gov (rl.after gov h) now id).1 = none ∨
      ∃ rps, (rl.check gov (rl.after gov h) now id).1 = some (.total rps) := by
  have hacc : WithinAccount gov rl h (now, id) := by
    classical
    intro a ha
    have : (kept (WithinTotal gov rl) h).filter (fun e => HasAccount rl e.2 a) = [] := by
      rw [List.filter_eq_nil_iff]
      intro r hr
      have := hnew r ((kept_sublist _ _).mem hr) a ha
      simpa using this
    simp only [this, List.map_nil]
    exact hfresh _
  obtain ⟨h1, h2, -, -⟩ := C31_verdict gov rl h now id
  by_cases hw : WithinTotal gov rl h (now, id)
  · exact .inl (h1.2 ⟨hw, hacc⟩)
  · right
    cases ht : rl.total with
    | none => exact absurd (fun rps e => by simp [ht] at e) hw
    | some rps => exact ⟨rps, (h2 rps).2 ⟨ht, hw⟩⟩

open Classical in
/-- What is admitted of a history is among what a limiter of the total rate, on its own, admits of it: so it is
never more, in any window of time. -/
theorem C31_total_is_a_cap (rl : RateLimit) (rps : Nat) (ht : rl.total = some rps) (h : List (τ × Option Id)) :
    ((kept (fun h r => (rl.check gov (rl.after gov h) r.1 r.2).1 = none) h).map Prod.fst).Sublist
      (kept (gov rps).Admits (h.map Prod.fst)) := by
  have e : kept (gov rps).Admits (h.map Prod.fst) = (kept (WithinTotal gov rl) h).map Prod.fst := by
    induction h using snoc_induction with
    | nil => rfl
    | snoc h a ih =>
      rw [List.map_append, List.map_cons, List.map_nil, kept_snoc, kept_snoc, List.map_append, ih]
      congr 1
      have : WithinTotal gov rl h a ↔ (gov rps).Admits (h.map Prod.fst) a.1 := by
        simp [WithinTotal, ht]
      by_cases hw : (gov rps).Admits (h.map Prod.fst) a.1 <;> simp [this, hw]
  rw [e]
  exact (kept_mono _ _ (fun h a ha => ((C31_verdict gov rl h a.1 a.2).1.1 ha).1) h).map _

/-- Likewise per account: what is admitted of an account's requests is among what a limiter of the account's rate
admits when it is asked for those of them that are within the total. -/
theorem C31_account_is_a_cap (rl : RateLimit) (a : Account) (h : List (τ × Option Id)) :
    (((kept (fun h r => (rl.check gov (rl.after gov h) r.1 r.2).1 = none) h).filter
        (fun r => accountOf rl r.2 = some a)).map Prod.fst).Sublist
      (kept (gov a.rps).Admits (onAccount gov rl h a)) := by
  induction h using snoc_induction with
  | nil => simp [kept_nil]
  | snoc h r ih =>
    rw [kept_snoc, List.filter_append, List.map_append, onAccount_snoc]
    by_cases ha : accountOf rl r.2 = some a
    · by_cases hw : WithinTotal gov rl h r
      · simp only [ha, hw, and_self, if_true]
        rw [kept_snoc]
        refine List.Sublist.append ih ?_
        by_cases hc : (rl.check gov (rl.after gov h) r.1 r.2).1 = none
        · have := ((withinAccount_iff gov rl h r).1 ((C31_verdict gov rl h r.1 r.2).1.1 hc).2) a ha
          simp [hc, this, ha]
        · simp [hc]
      · have hc : ¬ (rl.check gov (rl.after gov h) r.1 r.2).1 = none :=
          fun hc => hw ((C31_verdict gov rl h r.1 r.2).1.1 hc).1
        simpa [hw, hc] using ih
    · have : (List.filter (fun r => decide (accountOf rl r.2 = some a))
          (if (rl.check gov (rl.after gov h) r.1 r.2).1 = none then [r] else [])) = [] := by
        split <;> simp [ha]
      rw [this]
      simpa [ha] using ih

end

/-! ### From the control plane -/

/-- A rate of zero is no limit. -/
theorem C31_zero_is_no_limit (parse : Str → Option Id) (a : ApiRateLimit) :
    (a.total = some 0 → (RateLimit.ofApi parse a).total = none) ∧
    (a.identity = some 0 → (RateLimit.ofApi parse a).perIdentity = none) ∧
    (∀ id s, (id, s) ∈ (RateLimit.ofApi parse a).overrides → s.rps ≠ 0) := by
  refine ⟨fun h => by simp [RateLimit.ofApi, h, nonZero], fun h => by simp [RateLimit.ofApi, h, nonZero], ?_⟩
  intro id s h
  simp only [RateLimit.ofApi, List.mem_flatMap, overridePairs] at h
  obtain ⟨⟨o, i⟩, _, h⟩ := h
  cases ho : nonZero o.1 with
  | none => simp [ho] at h
  | some rps =>
    simp only [ho, List.mem_map] at h
    obtain ⟨_, _, e⟩ := h
    cases e
    intro h0
    simp only [nonZero, Option.bind_eq_some_iff] at ho
    obtain ⟨n, _, hn⟩ := ho
    split at hn <;> simp_all

/-- An identity gets the limiter of the last override that names it and has a non-zero rate; all identities of one
override share its limiter. -/
theorem C31_overrides_of_the_configuration (parse : Str → Option Id) (a : ApiRateLimit) (id : Id) (i rps : Nat) :
    HasAccount (RateLimit.ofApi parse a) (some id) (.override i rps) ↔
      (∃ names, a.overrides[i]? = some (some rps, names) ∧ rps ≠ 0 ∧ ∃ n ∈ names, parse n = some id) ∧
      ∀ j r names, i < j → a.overrides[j]? = some (some r, names) → r ≠ 0 → ∀ n ∈ names, parse n ≠ some id := by
  rw [hasAccount_iff]
  have hm : ∀ (k : Nat) (o : Option Nat × List Str) (s : Shared), (id, s) ∈ overridePairs parse (o, k) ↔
      o.1 = some s.rps ∧ s.rps ≠ 0 ∧ s.index = k ∧ ∃ n ∈ o.2, parse n = some id := by
    intro k o s
    obtain ⟨r, names⟩ := o
    obtain ⟨si, sr⟩ := s
    cases r with
    | none => simp [overridePairs, nonZero]
    | some r =>
      by_cases hr : r = 0
      · subst hr; simp [overridePairs, nonZero]; omega
      · simp [overridePairs, nonZero, hr]; grind
  suffices hgen : ∀ (os : List (Option Nat × List Str)) (k : Nat),
      Assoc.lookup id ((os.zipIdx k).flatMap (overridePairs parse)).reverse = some ⟨k + i, rps⟩ ↔
      (∃ names, os[i]? = some (some rps, names) ∧ rps ≠ 0 ∧ ∃ n ∈ names, parse n = some id) ∧
      ∀ j r names, i < j → os[j]? = some (some r, names) → r ≠ 0 → ∀ n ∈ names, parse n ≠ some id by
    have := hgen a.overrides 0
    rw [Nat.zero_add] at this
    rw [← this]
    unfold accountOf RateLimit.overrideOf RateLimit.ofApi
    dsimp only
    cases h : Assoc.lookup id (List.flatMap (overridePairs parse) a.overrides.zipIdx).reverse with
    | none => simp
    | some s => cases s; simp
  intro os
  induction os using snoc_induction with
  | nil => intro k; simp [Assoc.lookup]
  | snoc os o ih =>
    intro k
    rw [List.zipIdx_append, List.flatMap_append, List.reverse_append, Assoc.lookup_append]
    simp only [List.zipIdx_cons, List.zipIdx_nil, List.flatMap_cons, List.flatMap_nil, List.append_nil]
    have hlast := hm (k + os.length) o
    cases hl : Assoc.lookup id (overridePairs parse (o, k + os.length)).reverse with
    | some s =>
      have hmem := Assoc.mem_of_lookup hl
      rw [List.mem_reverse, hlast] at hmem
      obtain ⟨h1, h2, h3, h4⟩ := hmem
      simp only [Option.some_or, Option.some.injEq]
      constructor
      · rintro rfl
        have : i = os.length := by simp at h3; omega
        subst this
        refine ⟨⟨o.2, ?_, h2, h4⟩, ?_⟩
        · rw [List.getElem?_concat_length]; cases o; simp_all
        · intro j r names hj hg
          rw [List.getElem?_eq_none (by simp; omega)] at hg; simp at hg
      · rintro ⟨⟨names, hg, hr, hn⟩, hlater⟩
        by_cases hi : i < os.length
        · exfalso
          obtain ⟨n, hn1, hn2⟩ := h4
          exact hlater os.length s.rps o.2 hi (by rw [List.getElem?_concat_length]; cases o; simp_all) h2 n hn1 hn2
        · have : i = os.length := by
            have := lt_of_getElem?_some hg; simp at this; omega
          subst this
          rw [List.getElem?_concat_length] at hg
          cases s; cases hg; simp_all
    | none =>
      rw [lookup_reverse_none] at hl
      rw [Option.none_or, ih k]
      have hnone : ∀ r names, o = (some r, names) → r ≠ 0 → ∀ n ∈ names, parse n ≠ some id := by
        rintro r names rfl hr n hn hp
        exact hl _ ((hm _ _ ⟨k + os.length, r⟩).2 ⟨rfl, hr, rfl, n, hn, hp⟩) rfl
      constructor
      · rintro ⟨⟨names, hg, hr, hn⟩, hlater⟩
        have hi := lt_of_getElem?_some hg
        refine ⟨⟨names, by rw [List.getElem?_append_left hi]; exact hg, hr, hn⟩, ?_⟩
        intro j r names' hj hg' hr'
        by_cases hjl : j < os.length
        · rw [List.getElem?_append_left hjl] at hg'
          exact hlater j r names' hj hg' hr'
        · have : j = os.length := by
            have := lt_of_getElem?_some hg'; simp at this; omega
          subst this
          rw [List.getElem?_concat_length] at hg'
          exact hnone r names' (Option.some.inj hg') hr'
      · rintro ⟨⟨names, hg, hr, hn⟩, hlater⟩
        have hi : i < os.length := by
          apply Classical.byContradiction
          intro hi
          have : i = os.length := by
            have := lt_of_getElem?_some hg; simp at this; omega
          subst this
          rw [List.getElem?_concat_length] at hg
          obtain ⟨n, h1, h2⟩ := hn
          exact hnone rps names (Option.some.inj hg) hr n h1 h2
        rw [List.getElem?_append_left hi] at hg
        refine ⟨⟨names, hg, hr, hn⟩, ?_⟩
        intro j r names' hj hg' hr'
        exact hlater j r names' hj (by
          rw [List.getElem?_append_left (lt_of_getElem?_some hg')]; exact hg') hr'

/-! ## Concrete cases -/

/-- A limiter that admits the first `rps` requests and no more. -/
def counting (rps : Nat) : Limiter Nat Nat := ⟨0, fun _ n => (n < rps, n + 1)⟩

def idA : Id := .dns "a".toList
def idB : Id := .dns "b".toList
def idC : Id := .dns "c".toList

/-- 5 in total, 1 per identity; `b` and `c` share 2. -/
def sampleLimit : RateLimit := ⟨some 5, some 1, [(idB, ⟨0, 2⟩), (idC, ⟨0, 2⟩)]⟩

example : (sampleLimit.check counting (sampleLimit.after counting [(0, some idA)]) 0 (some idA)).1 =
    some (.perIdentity 1) := by decide +kernel

example : (sampleLimit.check counting (sampleLimit.after counting [(0, some idA), (0, some idA)]) 0 none).1 =
    none := by decide +kernel

example : (sampleLimit.check counting (sampleLimit.after counting [(0, some idB), (0, some idC)]) 0 (some idB)).1 =
    some (.override 2) := by decide +kernel

/-- A client that is rejected on its own account still uses up the total for the others. -/
theorem C31_rejected_requests_use_up_the_total :
    (sampleLimit.check counting (sampleLimit.after counting (List.replicate 5 (0, some idA))) 0 (some idB)).1 =
      some (.total 5) := by decide +kernel

example : HasAccount sampleLimit (some idB) (.override 0 2) :=
  .override idB [] ⟨0, 2⟩ [(idC, ⟨0, 2⟩)] rfl (by simp [idB, idC])

example : RateLimit.ofApi (fun s => some (.dns s)) ⟨some 5, some 1, [(some 2, ["b".toList, "c".toList]), (some 0, ["a".toList])]⟩ =
    sampleLimit := by decide +kernel

end Verif.ServerPolicy
