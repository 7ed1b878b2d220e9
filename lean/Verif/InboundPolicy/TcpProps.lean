import Verif.Common.List
import Verif.InboundPolicy.Tcp
import Verif.ServerPolicy.AuthzProps

/-!
# C29: established TCP connections are cut when policy withdraws authorization
-/

namespace Verif.InboundPolicy

open Verif.ServerPolicy

variable {R : Type}

/-! ## Specification -/

/-- A policy authorizes a raw connection: it is one for detected, TLS or opaque traffic, and one of its entries
for connections admits the client. -/
def Authorizes (p : ServerPolicy) (client : Ip) (tls : Tls) : Prop :=
  ∃ a, Admits a client tls ∧
    ((∃ http t l, p.protocol = .detect http t l ∧ a ∈ l) ∨ (∃ l, p.protocol = .tls l ∧ a ∈ l) ∨
      ∃ l, p.protocol = .opaque l ∧ a ∈ l)

/-- The policy in force after events, given the one at the start. -/
def inForce (p : ServerPolicy) (es : List (Ev R)) : ServerPolicy :=
  es.foldl (fun p e => match e with | .update p' => p' | _ => p) p

/-! ## Lemmas -/

theorem check_iff (p : ServerPolicy) (client : Ip) (tls : Tls) :
    (checkAuthorized p client tls).isSome = true ↔ Authorizes p client tls := by
  have h := C28_refused_iff (tcpAuthzs p.protocol) client tls
  unfold checkAuthorized Authorizes
  rw [Option.isSome_iff_ne_none, ne_eq, h]
  simp only [Classical.not_forall, Classical.not_not]
  cases hp : p.protocol <;> simp [tcpAuthzs] <;> grind

theorem run_snoc (c : Conn R) (es : List (Ev R)) (e : Ev R) : c.run (es ++ [e]) = (c.run es).step e := by
  simp [Conn.run]

theorem inForce_snoc (p : ServerPolicy) (es : List (Ev R)) (e : Ev R) :
    inForce p (es ++ [e]) = match e with | .update p' => p' | _ => inForce p es := by
  simp [inForce]

/-- What is true of every reachable connection. -/
structure Inv (p : ServerPolicy) (ip : Ip) (t : Tls) (es : List (Ev R)) (c : Conn R) : Prop where
  client : c.client = ip
  tls : c.tls = t
  policy : c.policy = inForce p es
  seen : c.seen ≤ c.version
  fresh : c.status = .open_ → c.seen = c.version → Authorizes c.policy ip t

theorem onChanged_inv {p : ServerPolicy} {client : Ip} {tls : Tls} {es es' : List (Ev R)} {c : Conn R}
    (h : Inv p client tls es c) (he : inForce p es' = inForce p es) : Inv p client tls es' c.onChanged := by
  unfold Conn.onChanged
  by_cases ha : (checkAuthorized c.policy c.client c.tls).isSome = true
  · simp only [ha, if_true]
    refine ⟨h.client, h.tls, by rw [he]; exact h.policy, Nat.le_refl _, fun _ _ => ?_⟩
    rw [check_iff, h.client, h.tls] at ha; exact ha
  · simp only [ha]
    exact ⟨h.client, h.tls, by rw [he]; exact h.policy, Nat.le_refl _, by simp⟩

theorem inv_run (p : ServerPolicy) (version seen : Nat) (hv : seen ≤ version) (client : Ip) (tls : Tls)
    (es : List (Ev R)) : Inv p client tls es ((Conn.accept p version seen client tls).run es) := by
  induction es using snoc_induction with
  | nil =>
    refine ⟨rfl, rfl, rfl, hv, fun h _ => ?_⟩
    simp only [Conn.run, List.foldl_nil, Conn.accept] at h ⊢
    rw [← check_iff]
    apply Classical.byContradiction
    intro hc
    rw [if_neg hc] at h; simp at h
  | snoc es e ih =>
    rw [run_snoc]
    generalize (Conn.accept p version seen client tls).run es = c at ih
    cases e with
    | update p' =>
      refine ⟨ih.client, ih.tls, by simp [Conn.step, inForce_snoc], ?_, ?_⟩
      · simp only [Conn.step]; have := ih.seen; omega
      · intro _ hs; simp only [Conn.step] at hs; have := ih.seen; omega
    | senderGone => exact ⟨ih.client, ih.tls, by simpa [Conn.step, inForce_snoc] using ih.policy, ih.seen, ih.fresh⟩
    | innerDone r => exact ⟨ih.client, ih.tls, by simpa [Conn.step, inForce_snoc] using ih.policy, ih.seen, ih.fresh⟩
    | round first =>
      have he : inForce p (es ++ [.round first]) = inForce p es := by rw [inForce_snoc]
      have hsame : Inv p client tls (es ++ [.round first]) c :=
        ⟨ih.client, ih.tls, by rw [he]; exact ih.policy, ih.seen, ih.fresh⟩
      simp only [Conn.step, Conn.round]
      split
      · split
        · split
          · exact onChanged_inv ih he
          · exact ⟨ih.client, ih.tls, by rw [he]; exact ih.policy, ih.seen, by simp⟩
        · split
          · exact onChanged_inv ih he
          · exact hsame
      · exact hsame

/-! ## Theorems -/

/-- A connection is accepted exactly when the policy in force authorizes it; otherwise it is refused. -/
theorem C29_accepted_iff (p : ServerPolicy) (version seen : Nat) (client : Ip) (tls : Tls) :
    ((Conn.accept p version seen client tls : Conn R).status = .open_ ↔ Authorizes p client tls) ∧
    ((Conn.accept p version seen client tls : Conn R).status = .refused ↔ ¬ Authorizes p client tls) := by
  rw [← check_iff]
  simp only [Conn.accept]
  split <;> simp_all

/-- A refused connection never gets anywhere. -/
theorem C29_refused_stays_refused (p : ServerPolicy) (version seen : Nat) (client : Ip) (tls : Tls)
    (h : ¬ Authorizes p client tls) (es : List (Ev R)) :
    ((Conn.accept p version seen client tls).run es).status = .refused := by
  induction es using snoc_induction with
  | nil => exact (C29_accepted_iff p version seen client tls).2.2 h
  | snoc es e ih =>
    rw [run_snoc]
    cases e <;> simp [Conn.step, Conn.round, ih]

/-- Whenever the task of an open connection waits (for the inner service or for a change of policy), the policy in
force authorizes the connection: whatever updates came, and even if the policy's source is gone. -/
theorem C29_waiting_means_authorized (p : ServerPolicy) (version seen : Nat) (hv : seen ≤ version) (client : Ip)
    (tls : Tls) (es : List (Ev R)) (hw : ((Conn.accept p version seen client tls).run es).waiting) :
    Authorizes (inForce p es) client tls := by
  have inv := inv_run p version seen hv client tls es
  rw [← inv.policy]
  exact inv.fresh hw.1 hw.2.2

/-- When the policy in force does not authorize an open connection, the next pass of its task ends it: it is
terminated, or the inner service was done with it already. -/
theorem C29_withdrawal_ends_the_connection (p : ServerPolicy) (version seen : Nat) (hv : seen ≤ version) (client : Ip)
    (tls : Tls) (es : List (Ev R)) (first : Bool)
    (ho : ((Conn.accept p version seen client tls).run es).status = .open_)
    (hd : ¬ Authorizes (inForce p es) client tls) :
    ((Conn.accept p version seen client tls).run (es ++ [.round first])).status = .terminated ∨
    ∃ r, ((Conn.accept p version seen client tls).run es).inner = some r ∧
      ((Conn.accept p version seen client tls).run (es ++ [.round first])).status = .finished r := by
  have inv := inv_run p version seen hv client tls es
  rw [run_snoc]
  generalize (Conn.accept p version seen client tls).run es = c at *
  rw [← inv.policy] at hd
  have hne : c.seen ≠ c.version := fun h => hd (inv.fresh ho h)
  have hoc : c.onChanged.status = .terminated := by
    have : ¬ (checkAuthorized c.policy c.client c.tls).isSome = true := by
      rw [check_iff, inv.client, inv.tls]; exact hd
    simp [Conn.onChanged, this]
  simp only [Conn.step, Conn.round, ho]
  cases hi : c.inner with
  | none => simp [hne, hoc]
  | some r => cases first <;> simp [hne, hoc]

/-- If it is not done, it is terminated. -/
theorem C29_withdrawal_terminates (p : ServerPolicy) (version seen : Nat) (hv : seen ≤ version) (client : Ip)
    (tls : Tls) (es : List (Ev R)) (first : Bool)
    (ho : ((Conn.accept p version seen client tls).run es).status = .open_)
    (hi : ((Conn.accept p version seen client tls).run es).inner = none)
    (hd : ¬ Authorizes (inForce p es) client tls) :
    ((Conn.accept p version seen client tls).run (es ++ [.round first])).status = .terminated := by
  rcases C29_withdrawal_ends_the_connection p version seen hv client tls es first ho hd with h | ⟨r, h, _⟩
  · exact h
  · rw [hi] at h; simp at h

/-- Policy terminates a connection only at a moment when the policy in force does not authorize it. -/
theorem C29_terminated_only_without_authorization (p : ServerPolicy) (version seen : Nat) (hv : seen ≤ version)
    (client : Ip) (tls : Tls) (es : List (Ev R))
    (ht : ((Conn.accept p version seen client tls).run es).status = .terminated) :
    ∃ before first after, es = before ++ .round first :: after ∧ ¬ Authorizes (inForce p before) client tls := by
  induction es using snoc_induction with
  | nil =>
    simp only [Conn.run, List.foldl_nil, Conn.accept] at ht
    split at ht <;> simp at ht
  | snoc es e ih =>
    rw [run_snoc] at ht
    by_cases ht' : ((Conn.accept p version seen client tls).run es).status = .terminated
    · obtain ⟨b, f, a, e', h⟩ := ih ht'
      exact ⟨b, f, a ++ [e], by simp [e'], h⟩
    · have inv := inv_run p version seen hv client tls es
      generalize (Conn.accept p version seen client tls).run es = c at *
      cases e with
      | update p' => exact absurd ht ht'
      | senderGone => exact absurd ht ht'
      | innerDone r => exact absurd ht ht'
      | round first =>
        refine ⟨es, first, [], rfl, ?_⟩
        intro ha
        rw [← inv.policy, ← check_iff] at ha
        have hoc : c.onChanged.status = c.status := by
          simp [Conn.onChanged, inv.client, inv.tls, ha]
        simp only [Conn.step, Conn.round] at ht
        split at ht
        · rename_i ho
          split at ht
          · split at ht
            · rw [hoc] at ht; exact ht' ht
            · simp at ht
          · split at ht
            · rw [hoc] at ht; exact ht' ht
            · exact ht' ht
        · exact ht' ht

/-- While the policy and all its updates authorize the connection, policy never ends it. -/
theorem C29_authorized_is_never_terminated (p : ServerPolicy) (version seen : Nat) (hv : seen ≤ version) (client : Ip)
    (tls : Tls) (es : List (Ev R)) (hp : Authorizes p client tls)
    (hu : ∀ p', .update p' ∈ es → Authorizes p' client tls) :
    ((Conn.accept p version seen client tls).run es).status = .open_ ∨
    ∃ r, ((Conn.accept p version seen client tls).run es).status = .finished r := by
  have hf : ∀ before after, es = before ++ after → Authorizes (inForce p before) client tls := by
    intro before
    induction before using snoc_induction with
    | nil => intro _ _; exact hp
    | snoc b e ih =>
      intro after he
      rw [inForce_snoc]
      cases e with
      | update p' => exact hu p' (by rw [he]; simp)
      | _ => exact ih (_ :: after) (by rw [he]; simp; rfl)
  have hnr : ((Conn.accept p version seen client tls : Conn R).run es).status ≠ .refused := by
    clear hf hu
    induction es using snoc_induction with
    | nil => rw [Conn.run, List.foldl_nil, (C29_accepted_iff p version seen client tls).1.2 hp]; simp
    | snoc es e ih =>
      rw [run_snoc]
      generalize (Conn.accept p version seen client tls).run es = c at ih
      have hoc : c.onChanged.status ≠ .refused := by
        simp only [Conn.onChanged]; split <;> simp [ih]
      cases e with
      | round first =>
        simp only [Conn.step, Conn.round]
        split
        · split
          · split
            · exact hoc
            · simp
          · split
            · exact hoc
            · exact ih
        · exact ih
      | _ => exact ih
  cases hs : ((Conn.accept p version seen client tls : Conn R).run es).status with
  | refused => exact absurd hs hnr
  | open_ => exact .inl rfl
  | finished r => exact .inr ⟨r, rfl⟩
  | terminated =>
    obtain ⟨b, f, a, e, h⟩ := C29_terminated_only_without_authorization p version seen hv client tls es hs
    exact absurd (hf b _ e) h

/-- A policy for HTTP or gRPC authorizes no raw connection: changing to one ends the connections accepted before. -/
theorem C29_http_policy_authorizes_no_connection (p : ServerPolicy) (client : Ip) (tls : Tls)
    (h : (∃ r, p.protocol = .http1 r) ∨ (∃ r, p.protocol = .http2 r) ∨ ∃ r, p.protocol = .grpc r) :
    ¬ Authorizes p client tls := by
  rintro ⟨a, _, h'⟩
  grind

/-! ## A concrete history -/

def anyone : Authorization := ⟨[⟨.v4 0 0, []⟩], .unauthenticated, .default "any".toList⟩
def permit : ServerPolicy := ⟨.opaque [anyone], .default "p".toList, {}⟩
def refuse : ServerPolicy := ⟨.opaque [], .default "p".toList, {}⟩

example : Authorizes permit (.v4 7) .none :=
  (check_iff _ _ _).1 (by decide +kernel)

example : ¬ Authorizes refuse (.v4 7) .none := by
  rw [← check_iff]; decide +kernel

example : ((Conn.accept permit 0 0 (.v4 7) .none : Conn Nat).run [.round true, .update refuse, .round true]).status =
    .terminated := by decide +kernel

example : ((Conn.accept permit 0 0 (.v4 7) .none : Conn Nat).run
    [.round true, .update permit, .round true, .innerDone 3, .round false]).status = .finished 3 := by decide +kernel

/-- An update that withdraws authorization and is replaced by one that grants it before the task runs again leaves
no trace. -/
theorem C29_overwritten_update_is_not_seen :
    ((Conn.accept permit 0 0 (.v4 7) .none : Conn Nat).run [.update refuse, .update permit, .round true]).status =
      .open_ := by decide +kernel

end Verif.InboundPolicy
