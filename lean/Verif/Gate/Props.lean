import Verif.Gate.Lemmas
import Verif.Gate.Spec

namespace Verif.Gate

/-- The permission a service holds, if the service exists. -/
def World.perm (w : World) (k : Nat) : Option (Option (Option Nat)) := (w.svcs[k]?).map Svc.permit

theorem perm_setSvc_self {w : World} {i : Nat} {s s' : Svc} (hs : w.svcs[i]? = some s) : (w.setSvc i s').perm i = some s'.permit := by
  have := lt_of_getElem?_some hs
  simp [World.perm, World.setSvc, this]

theorem perm_setSvc_ne {w : World} {i k : Nat} {s' : Svc} (h : k ≠ i) : (w.setSvc i s').perm k = w.perm k := by
  simp [World.perm, World.setSvc, List.getElem?_set_ne (Ne.symm h)]

theorem perm_setFut {w : World} {i : Nat} {s : Svc} (hs : w.svcs[i]? = some s) (f : Option Fut) (k : Nat) :
    (w.setSvc i { s with fut := f }).perm k = w.perm k := by
  by_cases h : k = i
  · subst h; rw [perm_setSvc_self hs]; simp [World.perm, hs]
  · exact perm_setSvc_ne h

theorem perm_release (w : World) (k : Nat) : w.release.perm k = w.perm k := by
  unfold World.release
  split
  · simp only [World.perm, List.getElem?_modify]
    split
    · cases w.svcs[k]? <;> rfl
    · cases w.svcs[k]? <;> rfl
  · rfl
  · rfl

theorem perm_releasePermit (w : World) (p : Option (Option Nat)) (k : Nat) : (w.releasePermit p).perm k = w.perm k := by
  unfold World.releasePermit
  split
  · split
    · exact perm_release w k
    · rfl
  · rfl

theorem perm_opened {w : World} {i : Nat} {s : Svc} (hs : w.svcs[i]? = some s) (k : Nat) : (w.opened i s).1.perm k = w.perm k := by
  unfold World.opened
  split
  · exact perm_setFut hs _ k
  · exact perm_setFut hs _ k
  · exact perm_setFut (w := { w with state := _ }) hs _ k
  · exact perm_setFut (w := { w with state := _ }) hs _ k

theorem perm_pollAcquire {w : World} {i : Nat} {s : Svc} (hs : w.svcs[i]? = some s) (k : Nat) : (w.pollAcquire i s).1.perm k = w.perm k := by
  unfold World.pollAcquire
  split
  · exact perm_opened hs k
  · split
    · rfl
    · exact perm_opened hs k
  · split
    · split
      · exact perm_setFut hs _ k
      · rfl
    · exact perm_opened hs k

theorem perm_admit {w : World} {i : Nat} (inner : Inner) (hn : w.perm i = some none) :
    (∀ k, k ≠ i → (w.admit i inner).1.perm k = w.perm k) ∧
    ((w.admit i inner).2 = .ready → ∃ p, (w.admit i inner).1.perm i = some (some p)) ∧
    ((w.admit i inner).2 ≠ .ready → (w.admit i inner).1.perm i = some none) := by
  unfold World.admit
  split
  · rename_i h; simp [World.perm, h] at hn
  · rename_i s hs
    have hp := perm_pollAcquire hs
    generalize w.pollAcquire i s = r at hp
    obtain ⟨w', o⟩ := r
    simp only at hp
    cases o with
    | none => exact ⟨fun k _ => hp k, by simp, fun _ => by simp only; rw [hp]; exact hn⟩
    | some p =>
      cases inner with
      | pending =>
        refine ⟨fun k _ => ?_, by simp, fun _ => ?_⟩
        · simp only; rw [perm_releasePermit]; exact hp k
        · simp only; rw [perm_releasePermit, hp]; exact hn
      | failed =>
        refine ⟨fun k _ => ?_, by simp, fun _ => ?_⟩
        · simp only; rw [perm_releasePermit]; exact hp k
        · simp only; rw [perm_releasePermit, hp]; exact hn
      | ready =>
        refine ⟨fun k hk => ?_, fun _ => ⟨p, ?_⟩, by simp⟩
        · simp only; rw [← hp k]
          simp [World.perm, List.getElem?_modify, Ne.symm hk]
        · have := hp i; rw [hn] at this
          simp only [World.perm] at this ⊢
          cases h : w'.svcs[i]? with
          | none => rw [h] at this; cases this
          | some x => simp [List.getElem?_modify, h]

/-- How one step changes the permissions. -/
theorem perm_step {w : World} (I : Inv w) (op : Op) (k : Nat) :
    ((∃ p, (w.step op).1.perm k = some (some p)) ↔
      match op with
      | .pollReady j _ => if j = k then (w.step op).2 = .ready else ∃ p, w.perm k = some (some p)
      | .call j => if j = k then False else ∃ p, w.perm k = some (some p)
      | .drop j => if j = k then False else ∃ p, w.perm k = some (some p)
      | _ => ∃ p, w.perm k = some (some p)) := by
  have hdead : ∀ (s : Svc), w.svcs[k]? = some s → s.alive ≠ true → w.perm k = some none := by
    intro s hs ha
    simp [World.perm, hs, (I.dead k s hs (by simpa using ha)).1]
  cases op with
  | openGate => rfl
  | limit n => rfl
  | shut => rfl
  | pollReady j r =>
    simp only [World.step, World.pollReady]
    split
    · rename_i h
      split
      · rename_i hj; subst hj; simp [World.perm, h]
      · rfl
    · rename_i s hs
      split
      · have hn : ((w.setSvc j { s with permit := none }).releasePermit s.permit).perm j = some none := by
          rw [perm_releasePermit, perm_setSvc_self hs]
        obtain ⟨h1, h2, h3⟩ := perm_admit r hn
        split
        · rename_i hj; subst hj
          constructor
          · rintro ⟨p, hp⟩
            by_cases h : (((w.setSvc j { s with permit := none }).releasePermit s.permit).admit j r).2 = .ready
            · exact h
            · rw [h3 h] at hp; cases hp
          · exact h2
        · rename_i hj
          rw [h1 k (Ne.symm hj), perm_releasePermit, perm_setSvc_ne (Ne.symm hj)]
      · rename_i ha
        split
        · rename_i hj; subst hj
          rw [hdead s hs ha]; simp
        · rfl
  | call j =>
    simp only [World.step, World.call]
    split
    · rename_i h
      split
      · rename_i hj; subst hj; simp [World.perm, h]
      · rfl
    · rename_i s hs
      split
      · split
        · rename_i hp
          split
          · rename_i hj; subst hj; simp [World.perm, hs, hp]
          · rfl
        · split
          · rename_i hj; subst hj; rw [perm_setSvc_self hs]; simp
          · rename_i hj; rw [perm_setSvc_ne (Ne.symm hj)]
      · rename_i ha
        split
        · rename_i hj; subst hj; rw [hdead s hs ha]; simp
        · rfl
  | clone j =>
    simp only [World.step, World.clone]
    split
    · rfl
    · split
      · simp only [World.perm, List.getElem?_append]
        split
        · rfl
        · rename_i hk
          have : w.svcs[k]? = none := by simp; omega
          rw [this]
          cases h : k - w.svcs.length with
          | zero => simp [Svc.new]
          | succ n => simp
      · rfl
  | drop j =>
    have hdet : ∀ (s : Svc), w.svcs[j]? = some s → (w.detach j).perm j = some none ∧ ∀ k, k ≠ j → (w.detach j).perm k = w.perm k := by
      intro s hs
      have h1 := perm_setSvc_self (s' := { alive := false, permit := none, fut := none }) hs
      have h2 := fun k (hk : k ≠ j) => perm_setSvc_ne (w := w) (s' := { alive := false, permit := none, fut := none }) hk
      simp only [World.detach]
      split
      · exact ⟨h1, h2⟩
      · exact ⟨h1, h2⟩
    simp only [World.step, World.drop]
    split
    · rename_i h
      split
      · rename_i hj; subst hj; simp [World.perm, h]
      · rfl
    · rename_i s hs
      obtain ⟨h1, h2⟩ := hdet s hs
      split
      · have hfin : ∀ w' : World, (∀ k, w'.perm k = (w.detach j).perm k) → ((∃ p, w'.perm k = some (some p)) ↔ if j = k then False else ∃ p, w.perm k = some (some p)) := by
          intro w' hw
          rw [hw]
          split
          · rename_i hj; subst hj; rw [h1]; simp
          · rename_i hj; rw [h2 k (Ne.symm hj)]
        split
        · apply hfin; intro k; rw [perm_releasePermit, perm_releasePermit]
        · apply hfin; intro k; rw [perm_releasePermit]
      · rename_i ha
        split
        · rename_i hj; subst hj; rw [hdead s hs ha]; simp
        · rfl

theorem run_append (w : World) (a b : List Op) :
    run w (a ++ b) = ((run (run w a).1 b).1, (run w a).2 ++ (run (run w a).1 b).2) := by
  induction a generalizing w with
  | nil => rfl
  | cons op ops ih => simp only [List.cons_append, run]; rw [ih]

theorem run_length (w : World) (ops : List Op) : (run w ops).2.length = ops.length := by
  induction ops generalizing w with
  | nil => rfl
  | cons op ops ih => simp [run, ih]

theorem after_snoc (ops : List Op) (op : Op) : after (ops ++ [op]) = ((after ops).step op).1 := by
  unfold after; rw [run_append]; rfl

theorem log_snoc (ops : List Op) (op : Op) : log (ops ++ [op]) = log ops ++ [(op, ((after ops).step op).2)] := by
  unfold log after
  rw [run_append, List.zip_append (run_length _ _).symm]
  rfl

/-- What one step does to the accounting. -/
theorem step_acct {w : World} (I : Inv w) (op : Op) :
    Inv (w.step op).1 ∧
    (op.isChange = false → w.state ≠ .opened →
      (w.step op).1.state ≠ .opened ∧ (w.state = .shut → (w.step op).1.state = .shut) ∧
      (w.step op).1.total + (w.step op).1.stale + (w.step op).2.adm ≤ w.total + w.stale ∧
      (w.stale = 0 → (w.step op).1.stale = 0 ∧
        (w.step op).1.total + (w.step op).2.adm = w.total)) := by
  have kk : ∀ w' : World, (w'.state = w.state ∨ (∃ a q, w.state = .limited a q) ∧ ∃ a q, w'.state = .limited a q) → w.state ≠ .opened →
      w'.state ≠ .opened ∧ (w.state = .shut → w'.state = .shut) := by
    intro w' h hn
    rcases h with h | ⟨⟨a, q, h⟩, ⟨a', q', h'⟩⟩
    · rw [h]; exact ⟨hn, fun h => h⟩
    · rw [h, h']; simp
  cases op with
  | openGate => exact ⟨I.publish _ (by simp), by simp [Op.isChange]⟩
  | limit n => exact ⟨I.publish _ (by simp), by simp [Op.isChange]⟩
  | shut => exact ⟨I.publish _ (by simp), by simp [Op.isChange]⟩
  | clone i =>
    obtain ⟨h1, h2, h3, h4, h5⟩ := I.clone i
    have hout : (w.clone i).2.adm = 0 := by
      unfold World.clone; split
      · rfl
      · split <;> rfl
    refine ⟨h1, fun _ hn => ?_⟩
    simp only [World.step]
    exact ⟨by rw [h4]; exact hn, by rw [h4]; exact id, by omega, fun h => ⟨by omega, by omega⟩⟩
  | call i =>
    obtain ⟨h1, h2, h3, h4, h5⟩ := I.call i
    refine ⟨h1, fun _ hn => ?_⟩
    simp only [World.step]
    exact ⟨by rw [h4]; exact hn, by rw [h4]; exact id, by omega, fun h => ⟨by omega, by omega⟩⟩
  | drop i =>
    obtain ⟨h1, h2, h3, h4, h5, h6⟩ := I.drop i
    refine ⟨h1, fun _ hn => ?_⟩
    simp only [World.step]
    obtain ⟨k1, k2⟩ := kk _ h4 hn
    exact ⟨k1, k2, by omega, fun h => by have := h3 h; omega⟩
  | pollReady i r =>
    simp only [World.step]
    cases hs : w.svcs[i]? with
    | none =>
      have : w.pollReady i r = (w, .nothing) := by unfold World.pollReady; rw [hs]
      rw [this]
      exact ⟨I, fun _ hn => ⟨hn, id, Nat.le_refl _, fun h => ⟨h, rfl⟩⟩⟩
    | some s =>
      by_cases ha : s.alive = true
      · have P := pollReady_polled I hs ha r
        have hout : (w.pollReady i r).2.adm = 0 := by
          rcases P.out with h | h | h <;> rw [h] <;> rfl
        refine ⟨P.inv, fun _ hn => ?_⟩
        obtain ⟨k1, k2⟩ := kk _ P.kind hn
        exact ⟨k1, k2, by have := P.bound hn; omega, fun h => by have := P.exact hn h; omega⟩
      · have : w.pollReady i r = (w, .nothing) := by unfold World.pollReady; rw [hs]; simp [ha]
        rw [this]
        exact ⟨I, fun _ hn => ⟨hn, id, Nat.le_refl _, fun h => ⟨h, rfl⟩⟩⟩

theorem inv_run {w : World} (I : Inv w) (ops : List Op) : Inv (run w ops).1 := by
  induction ops generalizing w with
  | nil => exact I
  | cons op ops ih => exact ih (step_acct I op).1

theorem inv_after (ops : List Op) : Inv (after ops) := inv_run Inv.init ops

/-- The published state is the setting. -/
theorem step_setting {w : World} (I : Inv w) (op : Op) (hc : op.isChange = false) :
    (w.step op).1.state = w.state ∨ (∃ a q, w.state = .limited a q) ∧ ∃ a q, (w.step op).1.state = .limited a q := by
  cases op with
  | openGate => simp [Op.isChange] at hc
  | limit n => simp [Op.isChange] at hc
  | shut => simp [Op.isChange] at hc
  | clone i => exact .inl (I.clone i).2.2.2.1
  | call i => exact .inl (I.call i).2.2.2.1
  | drop i => exact (I.drop i).2.2.2.1
  | pollReady i r =>
    simp only [World.step]
    cases hs : w.svcs[i]? with
    | none => exact .inl (by unfold World.pollReady; rw [hs])
    | some s =>
      by_cases ha : s.alive = true
      · exact (pollReady_polled I hs ha r).kind
      · exact .inl (by unfold World.pollReady; rw [hs]; simp [ha])

theorem setting_state (ops : List Op) :
    (setting ops = .opened ↔ (after ops).state = .opened) ∧ (setting ops = .shut ↔ (after ops).state = .shut) := by
  induction ops using snoc_induction with
  | nil => simp [setting, after, run, init]
  | snoc ops op ih =>
    have I := inv_after ops
    rw [after_snoc]
    have hset : setting (ops ++ [op]) = (setting ops).next op := by simp [setting]
    rw [hset]
    by_cases hc : op.isChange = true
    · cases op <;> simp [Op.isChange] at hc <;> simp [Setting.next, World.step, World.publish]
    · have h1 := step_setting I op (by simpa using hc)
      have h2 : (setting ops).next op = setting ops := by
        cases op <;> simp [Op.isChange] at hc <;> rfl
      rw [h2]
      rcases h1 with h | ⟨⟨a, q, h⟩, ⟨a', q', h'⟩⟩
      · rw [h]; exact ih
      · rw [h'] at *; rw [h] at ih; simpa using ih

theorem granted_perm (ops : List Op) (k : Nat) : granted k (log ops) = true ↔ ∃ p, (after ops).perm k = some (some p) := by
  induction ops using snoc_induction with
  | nil =>
    simp [granted, log, after, run, init, World.perm, Svc.new]
    cases k <;> simp
  | snoc ops op ih =>
    rw [after_snoc, perm_step (inv_after ops) op k, log_snoc]
    have : granted k (log ops ++ [(op, ((after ops).step op).2)]) = (match (op, ((after ops).step op).2) with
      | (.pollReady j _, out) => if j = k then out == .ready else granted k (log ops)
      | (.call j, _) => if j = k then false else granted k (log ops)
      | (.drop j, _) => if j = k then false else granted k (log ops)
      | _ => granted k (log ops)) := by
      unfold granted; rw [List.foldl_append]; rfl
    rw [this]
    cases op <;> simp only <;> first | exact ih | (split <;> first | exact ih | simp)

theorem count_range (l : List Svc) :
    ((List.range l.length).filter (fun i => match l[i]? with | some s => s.permit.isSome | none => false)).length =
      (l.map (fun x => if x.permit ≠ none then 1 else 0)).sum := by
  induction l using snoc_induction with
  | nil => rfl
  | snoc l a ih =>
    rw [List.length_append, List.length_singleton, List.range_succ, List.filter_append, List.length_append, List.map_append, List.sum_append, ← ih]
    have e1 : ((List.range l.length).filter (fun i => match (l ++ [a])[i]? with | some s => s.permit.isSome | none => false)) =
        (List.range l.length).filter (fun i => match l[i]? with | some s => s.permit.isSome | none => false) := by
      apply List.filter_congr
      intro x hx
      have : x < l.length := by simpa using hx
      rw [List.getElem?_append_left this]
    rw [e1]
    cases h : a.permit <;> simp [h]

theorem grantedCount_eq (ops : List Op) :
    grantedCount ops = ((after ops).svcs.map (fun x => if x.permit ≠ none then 1 else 0)).sum := by
  unfold grantedCount
  rw [← count_range]
  congr 1
  apply List.filter_congr
  intro x _
  have := granted_perm ops x
  simp only [World.perm] at this
  cases hx : (after ops).svcs[x]? with
  | none => rw [hx] at this; simp at this; simp [this]
  | some s =>
    rw [hx] at this
    cases hp : s.permit with
    | none => simp [hp] at this; simp [hp, this]
    | some p => simp [hp] at this; simp [hp, this]

theorem admitted_cons (o : Out) (os : List Out) : admitted (o :: os) = o.adm + admitted os := by
  unfold admitted
  cases o <;> simp [Out.adm, Nat.add_comm]

/-- Bound for a run without reopening. -/
theorem run_bound (ops : List Op) (hno : .openGate ∉ ops) {w : World} (I : Inv w) (hs : w.state ≠ .opened) :
    admitted (run w ops).2 ≤ w.total + w.stale + limits ops := by
  induction ops generalizing w with
  | nil => simp [run, admitted]
  | cons op ops ih =>
    have hno' : .openGate ∉ ops := fun h => hno (by simp [h])
    simp only [run, admitted_cons]
    obtain ⟨I', hstep⟩ := step_acct I op
    by_cases hc : op.isChange = true
    · have hpub : ∀ s, s ≠ GState.opened → (∀ a q, s = .limited a q → q = []) →
          admitted (run (w.publish s) ops).2 ≤ w.total + w.stale + ((w.publish s).avail + limits ops) := by
        intro s h1 h2
        have := ih hno' (I.publish s h2) h1
        obtain ⟨e1, e2⟩ := publish_counts I s
        have hle : (w.svcs.map (fun x => if x.permit ≠ none then 1 else 0)).sum ≤ w.total + w.stale := by
          have : ∀ l : List Svc, (l.map (fun x => if x.permit ≠ none then 1 else 0)).sum ≤ (l.map (Svc.cur w.version)).sum + (l.map (Svc.stale w.version)).sum := by
            intro l
            induction l with
            | nil => simp
            | cons x xs ih =>
              simp only [List.map_cons, List.sum_cons]
              have : (if x.permit ≠ none then 1 else 0) ≤ x.cur w.version + x.stale w.version := by
                unfold Svc.cur Svc.stale
                by_cases hx : x.permit = none
                · simp [hx]
                · by_cases hy : x.permit = some (some w.version)
                  · simp [hy]
                  · simp [hx, hy]
              omega
          have := this w.svcs
          simp only [World.total, World.stale]; omega
        rw [e1, e2] at this
        omega
      cases op with
      | openGate => simp at hno
      | limit n =>
        have := hpub (.limited n []) (by simp) (by simp)
        simp only [World.step, Out.adm, limits]
        simp only [World.avail, World.publish] at this ⊢
        omega
      | shut =>
        have := hpub .shut (by simp) (by simp)
        simp only [World.step, Out.adm, limits]
        simp only [World.avail, World.publish] at this ⊢
        omega
      | _ => simp [Op.isChange] at hc
    · obtain ⟨h1, _, h3, _⟩ := hstep (by simpa using hc) hs
      have := ih hno' I' h1
      have hl : limits (op :: ops) = limits ops := by
        cases op <;> first | rfl | simp [Op.isChange] at hc
      omega

/-- Accounting for a run without gate changes and with no older permissions around. -/
theorem run_exact (ops : List Op) (hno : ∀ op ∈ ops, op.isChange = false) {w : World} (I : Inv w) (hs : w.state ≠ .opened)
    (h0 : w.stale = 0) :
    (run w ops).1.stale = 0 ∧ (run w ops).1.total + admitted (run w ops).2 = w.total ∧ (run w ops).1.state ≠ .opened := by
  induction ops generalizing w with
  | nil => simp [run, admitted, h0, hs]
  | cons op ops ih =>
    simp only [run, admitted_cons]
    obtain ⟨I', hstep⟩ := step_acct I op
    obtain ⟨h1, _, _, h4⟩ := hstep (hno op (by simp)) hs
    obtain ⟨h5, h6⟩ := h4 h0
    obtain ⟨a, b, c⟩ := ih (fun o ho => hno o (by simp [ho])) I' h1 h5
    exact ⟨a, by omega, c⟩

/-- Permits given to a service that is waiting and has not been polled since. -/
def World.assigned (w : World) : Nat :=
  (w.svcs.map (fun s => if s.fut = some (.acquire w.version true) then 1 else 0)).sum

/-- C07. While the gate is open a service answers what the inner service answers; while it is shut
every readiness check is pending. -/
theorem C07_open_and_shut (ops : List Op) (i : Nat) (s : Svc) (inner : Inner)
    (hs : (after ops).svcs[i]? = some s) (ha : s.alive = true) :
    (setting ops = .opened → ((after ops).step (.pollReady i inner)).2 =
      match inner with | .ready => .ready | .failed => .failed | .pending => .pending) ∧
    (setting ops = .shut → ((after ops).step (.pollReady i inner)).2 = .pending) := by
  have P := pollReady_polled (inv_after ops) hs ha inner
  constructor
  · intro h
    have ho := (setting_state ops).1.1 h
    have hc := P.complete (.inl ho)
    simp only [World.step]
    cases inner with
    | ready =>
      rcases P.out with h | h | h
      · simp [h] at hc
      · exact h
      · have := P.fails h; cases this
    | failed =>
      rcases P.out with h | h | h
      · simp [h] at hc
      · have := (P.sound h).1; cases this
      · exact h
    | pending =>
      rcases P.out with h | h | h
      · exact h
      · have := (P.sound h).1; cases this
      · have := P.fails h; cases this
  · intro h
    exact P.blocked ((setting_state ops).2.1 h)

/-- C07. After the gate is shut or limited, until it is reopened, the requests that get through are at
most the permits of the limits set since, plus the services that had already been told they are ready. -/
theorem C07_admissions_bounded (ops later : List Op) (change : Op)
    (hchange : change = .shut ∨ ∃ n, change = .limit n) (hlater : .openGate ∉ later) :
    admitted (run (after ops) (change :: later)).2 ≤ grantedCount ops + limits (change :: later) := by
  have I := inv_after ops
  have key : ∀ s, s ≠ GState.opened → (∀ a q, s = .limited a q → q = []) →
      admitted (run ((after ops).publish s) later).2 ≤ grantedCount ops + ((after ops).publish s).avail + limits later := by
    intro s h1 h2
    have := run_bound later hlater (I.publish s h2) h1
    obtain ⟨e1, e2⟩ := publish_counts I s
    rw [e1, e2, ← grantedCount_eq] at this
    omega
  simp only [run, admitted_cons]
  rcases hchange with rfl | ⟨n, rfl⟩
  · have := key .shut (by simp) (by simp)
    simp only [World.step, Out.adm, limits]
    simp only [World.avail, World.publish] at this ⊢
    omega
  · have := key (.limited n []) (by simp) (by simp)
    simp only [World.step, Out.adm, limits]
    simp only [World.avail, World.publish] at this ⊢
    omega

/-- C07. No permit of a limit is lost or duplicated: while a limit of `n` is in force, the requests let
through, the services told they are ready, the permits on their way to waiting services and the free
permits add up to `n` (if no older permission was outstanding). -/
theorem C07_permits_conserved (ops later : List Op) (n : Nat) (h0 : grantedCount ops = 0)
    (hlater : ∀ op ∈ later, op.isChange = false) :
    let h := ops ++ .limit n :: later
    admitted (run (after ops) (.limit n :: later)).2 + grantedCount h + (after h).assigned + (after h).avail = n := by
  have I := inv_after ops
  obtain ⟨e1, e2⟩ := publish_counts I (.limited n [])
  rw [← grantedCount_eq, h0] at e2
  obtain ⟨h1, h2, h3⟩ := run_exact later hlater (I.publish (.limited n []) (by simp)) (by simp [World.publish]) e2
  have hh : after (ops ++ .limit n :: later) = (run ((after ops).publish (.limited n [])) later).1 := by
    unfold after; rw [run_append]; rfl
  have hI := inv_after (ops ++ .limit n :: later)
  have hsum : ∀ (v : Nat) (l : List Svc), (l.map (Svc.stale v)).sum = 0 →
      (l.map (Svc.cur v)).sum = (l.map (fun x => if x.permit ≠ none then 1 else 0)).sum +
        (l.map (fun s => if s.fut = some (.acquire v true) then 1 else 0)).sum := by
    intro v l
    induction l with
    | nil => intro _; rfl
    | cons x xs ih =>
      intro h
      simp only [List.map_cons, List.sum_cons] at h ⊢
      have hx : x.stale v = 0 := by omega
      have := ih (by omega)
      have : x.cur v = (if x.permit ≠ none then 1 else 0) + (if x.fut = some (.acquire v true) then 1 else 0) := by
        unfold Svc.stale at hx
        unfold Svc.cur
        by_cases hp : x.permit = none
        · simp [hp]
        · by_cases hq : x.permit = some (some v)
          · simp [hq]
          · simp [hp, hq] at hx
      omega
  simp only
  rw [grantedCount_eq, hh]
  simp only [run, admitted_cons]
  have e3 : ((after ops).step (.limit n)).1 = (after ops).publish (.limited n []) := rfl
  rw [e3]
  have e4 : ((after ops).step (.limit n)).2.adm = 0 := rfl
  rw [e4]
  have := hsum _ _ h1
  rw [e1] at h2
  have e5 : ((after ops).publish (.limited n [])).avail = n := rfl
  rw [e5] at h2
  simp only [World.total] at h2
  unfold World.assigned
  omega

/-- C07. A free permit lets the next ready service through. -/
theorem C07_free_permit_grants (ops : List Op) (i : Nat) (s : Svc)
    (hs : (after ops).svcs[i]? = some s) (ha : s.alive = true) (hfree : 0 < (after ops).avail) :
    ((after ops).step (.pollReady i .ready)).2 = .ready := by
  have P := pollReady_polled (inv_after ops) hs ha .ready
  have hc := P.complete (.inr hfree)
  simp only [World.step]
  rcases P.out with h | h | h
  · simp [h] at hc
  · exact h
  · have := P.fails h; cases this

/-- C07. A call goes through exactly when the service was told it is ready and has not used that
answer; otherwise it panics and nothing reaches the inner service. -/
theorem C07_call_needs_readiness (ops : List Op) (i : Nat) (s : Svc)
    (hs : (after ops).svcs[i]? = some s) (ha : s.alive = true) :
    ((after ops).step (.call i)).2 = if granted i (log ops) then .admitted else .panic := by
  have h := granted_perm ops i
  simp only [World.step, World.call, hs, ha, if_true]
  simp only [World.perm, hs, Option.map_some, Option.some.injEq] at h
  cases hp : s.permit with
  | none => rw [hp] at h; simp at h; simp [h]
  | some p => rw [hp] at h; simp at h; simp [h]

/-- Limit to one, two clones wait, the first gets the permit and drops out, the second uses it, then
nothing gets through until the gate opens. -/
def sample : List Op :=
  [.clone 0, .clone 0, .shut, .pollReady 0 .ready, .pollReady 1 .ready, .limit 1, .pollReady 0 .ready, .pollReady 1 .ready,
   .drop 0, .pollReady 1 .ready, .call 1, .pollReady 1 .ready, .pollReady 2 .ready, .call 2, .openGate, .pollReady 2 .ready, .call 2]

example : (run init sample).2 =
    [.done, .done, .done, .pending, .pending, .done, .ready, .pending,
     .done, .ready, .admitted, .pending, .pending, .panic, .done, .ready, .admitted] := by decide

/-- A permission granted before the gate shuts still lets one request through. -/
example : (run init [.pollReady 0 .ready, .shut, .call 0, .pollReady 0 .ready]).2 = [.ready, .done, .admitted, .pending] ∧
    grantedCount [.pollReady 0 .ready] = 1 ∧ grantedCount (sample.take 5) = 0 ∧ setting (sample.take 7) = .limited 1 := by decide

end Verif.Gate
