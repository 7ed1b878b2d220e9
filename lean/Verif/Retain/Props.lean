import Verif.Retain.Model
import Verif.IdleCache.Props
import Verif.Common.List

/-! # C114: a cached service is kept while its responses are read -/

namespace Verif.Retain

variable {K : Type} [DecidableEq K]

/-! ### Specification -/

/-- What has become of a request: it did not come yet, its service is not ready, it was called, its response is being read, or
it is over, since a time. -/
inductive Status where
  | unsent
  | waiting
  | called
  | reading
  | over (t : Nat)
  deriving DecidableEq, Repr

/-- What an operation makes of request `i`, if `n` requests came before, at time `now`. -/
def Status.see (i n now : Nat) : Status → Op K → Status
  | .unsent, .request _ => if n = i then .waiting else .unsent
  | .waiting, .ready i' ok => if i' = i then (if ok then .called else .over now) else .waiting
  | .called, .respond i' ok => if i' = i then (if ok then .reading else .over now) else .called
  | .waiting, .finish i' => if i' = i then .over now else .waiting
  | .called, .finish i' => if i' = i then .over now else .called
  | .reading, .finish i' => if i' = i then .over now else .reading
  | s, _ => s

/-- The keys of the requests, in the order in which they came. -/
def keys (ops : List (Op K)) : List K := ops.filterMap fun o => match o with | .request k => some k | _ => none

/-- The time that passes. -/
def clock (ops : List (Op K)) : Nat := (ops.map fun o => match o with | .tick d => d | _ => 0).sum

/-- What has become of request `i` after a history. -/
def status (i : Nat) (ops : List (Op K)) : Status := go .unsent 0 0 ops
where
  go (s : Status) (n now : Nat) : List (Op K) → Status
    | [] => s
    | o :: os => go (s.see i n now o) (n + (keys [o]).length) (now + clock [o]) os

/-- Is a request in progress: from when it comes until it failed or was dropped, or its response's body was dropped? -/
def Status.inProgress : Status → Bool
  | .waiting | .called | .reading => true
  | _ => false

/-- The service that request `i` was given. -/
def served (idle : Nat) (i : Nat) (ops : List (Op K)) : Option Nat := ((after idle ops).reqs[i]?).map Req.served

/-! ### Proofs -/

theorem keys_snoc (ops : List (Op K)) (o : Op K) : keys (ops ++ [o]) = keys ops ++ keys [o] := by simp [keys, List.filterMap_append]

theorem clock_snoc (ops : List (Op K)) (o : Op K) : clock (ops ++ [o]) = clock ops + clock [o] := by simp [clock]

theorem clock_cons (o : Op K) (ops : List (Op K)) : clock (o :: ops) = clock [o] + clock ops := by simp [clock]

theorem keys_cons (o : Op K) (ops : List (Op K)) : keys (o :: ops) = keys [o] ++ keys ops := by
  simp only [keys, List.filterMap_cons]; cases o <;> simp

theorem status_snoc (i : Nat) (ops : List (Op K)) (o : Op K) :
    status i (ops ++ [o]) = (status i ops).see i (keys ops).length (clock ops) o := by
  have : ∀ (s : Status) n now, status.go i s n now (ops ++ [o]) =
      (status.go i s n now ops).see i (n + (keys ops).length) (now + clock ops) o := by
    induction ops with
    | nil => intro s n now; simp [status.go, keys, clock]
    | cons x xs ih =>
      intro s n now
      simp only [List.cons_append, status.go, ih]
      rw [keys_cons x xs, clock_cons x xs, List.length_append, Nat.add_assoc, Nat.add_assoc]
  simpa [status] using this .unsent 0 0

theorem after_snoc (idle : Nat) (ops : List (Op K)) (o : Op K) : after idle (ops ++ [o]) = (after idle ops).step idle o := by
  simp [after, run]

theorem run_append (idle : Nat) (w : World K) (a b : List (Op K)) : run idle w (a ++ b) = run idle (run idle w a) b := by simp [run]

/-- The cache's history. -/
theorem cache_run (idle : Nat) (ops : List (Op K)) (w : World K) : ∃ h : List (IdleCache.Op K Nat),
    (run idle w ops).cache = (IdleCache.run idle w.cache h).1 ∧ (∀ k, IdleCache.NoPermanent k h) ∧
      IdleCache.elapsed h = clock ops ∧ (∀ k, k ∉ keys ops → ∀ o ∈ h, ¬ IdleCache.Uses k o) ∧
      ∀ j, .expire j ∈ h → .expire j ∈ ops := by
  induction ops generalizing w with
  | nil => exact ⟨[], rfl, (fun _ _ h => nomatch h), rfl, (fun _ _ _ h => nomatch h), (fun _ h => nomatch h)⟩
  | cons o os ih =>
    obtain ⟨h, h1, h2, h3, h4, h5⟩ := ih (w.step idle o)
    have elapsed_append : ∀ a b : List (IdleCache.Op K Nat), IdleCache.elapsed (a ++ b) = IdleCache.elapsed a + IdleCache.elapsed b := by
      intro a b
      induction a with
      | nil => simp [IdleCache.elapsed]
      | cons x xs ih => cases x <;> simp [IdleCache.elapsed, ih, Nat.add_assoc]
    have hp : (∀ k, IdleCache.NoPermanent k (w.plan o)) ∧ IdleCache.elapsed (w.plan o) = clock [o] ∧
        (∀ k, k ∉ keys [o] → ∀ x ∈ w.plan o, ¬ IdleCache.Uses k x) ∧ ∀ j, .expire j ∈ w.plan o → .expire j = o := by
      cases o with
      | request k =>
        simp [World.plan, IdleCache.NoPermanent, IdleCache.elapsed, clock, keys, IdleCache.Uses]
        exact fun k' h e => h e.symm
      | ready i ok =>
        simp only [World.plan]
        split
        · split <;> simp [IdleCache.NoPermanent, IdleCache.elapsed, clock, IdleCache.Uses]
        · simp [IdleCache.NoPermanent, IdleCache.elapsed, clock]
      | respond i ok =>
        simp only [World.plan]
        split
        · split <;> simp [IdleCache.NoPermanent, IdleCache.elapsed, clock, IdleCache.Uses]
        · simp [IdleCache.NoPermanent, IdleCache.elapsed, clock]
      | finish i =>
        simp only [World.plan]
        split <;> simp [IdleCache.NoPermanent, IdleCache.elapsed, clock, IdleCache.Uses]
      | release j => simp [World.plan, IdleCache.NoPermanent, IdleCache.elapsed, clock, IdleCache.Uses]
      | expire id => simp [World.plan, IdleCache.NoPermanent, IdleCache.elapsed, clock, IdleCache.Uses]
      | wake id => simp [World.plan, IdleCache.NoPermanent, IdleCache.elapsed, clock, IdleCache.Uses]
      | tick d => simp [World.plan, IdleCache.NoPermanent, IdleCache.elapsed, clock, IdleCache.Uses]
    refine ⟨w.plan o ++ h, ?_, ?_, ?_, ?_, ?_⟩
    · rw [IdleCache.run_append]; exact h1
    · intro k v hm
      rcases List.mem_append.1 hm with hm | hm
      · exact hp.1 k v hm
      · exact h2 k v hm
    · rw [elapsed_append, hp.2.1, h3, ← clock_cons]
    · intro k hk x hx
      rw [keys_cons, List.mem_append, not_or] at hk
      rcases List.mem_append.1 hx with hx | hx
      · exact hp.2.2.1 k hk.1 x hx
      · exact h4 k hk.2 x hx
    · intro j hj
      rcases List.mem_append.1 hj with hj | hj
      · rw [← hp.2.2.2 j hj]; exact List.mem_cons_self ..
      · exact List.mem_cons_of_mem _ (h5 j hj)

theorem cache_inv (idle : Nat) (ops : List (Op K)) : IdleCache.Inv idle (after idle ops).cache := by
  obtain ⟨h, h1, _⟩ := cache_run idle ops (init : World K)
  have := IdleCache.inv_after (K := K) (V := Nat) idle h
  unfold after
  rw [h1]; exact this

abbrev Handles (K : Type) := List (IdleCache.Held K Nat)

/-- What a step may do to handles: handle `d` may be dropped, released ones stay as they were. -/
def Ext (d : Option Nat) (hs hs' : Handles K) : Prop :=
  ∀ (j : Nat) h, hs[j]? = some h → ∃ h', hs'[j]? = some h' ∧ h'.key = h.key ∧ h'.value = h.value ∧
    (h.life = .live → d ≠ some j → h'.life = .live) ∧ (h.life ≠ .live → h'.life ≠ .live ∧ h'.notifiedAt = h.notifiedAt)

theorem Ext.refl (d : Option Nat) (hs : Handles K) : Ext d hs hs := fun _ h hj => ⟨h, hj, rfl, rfl, fun h _ => h, fun h => ⟨h, rfl⟩⟩

theorem Ext.snoc (d : Option Nat) (hs : Handles K) (x : IdleCache.Held K Nat) : Ext d hs (hs ++ [x]) :=
  fun j h hj => ⟨h, by rw [List.getElem?_append_left (lt_of_getElem?_some hj)]; exact hj, rfl, rfl, fun h _ => h, fun h => ⟨h, rfl⟩⟩

theorem Ext.trans {d : Option Nat} {a b c : Handles K} (h1 : Ext d a b) (h2 : Ext d b c) : Ext d a c := by
  intro j h hj
  obtain ⟨h', e1, e2, e3, e4, e5⟩ := h1 j h hj
  obtain ⟨h'', f1, f2, f3, f4, f5⟩ := h2 j h' e1
  refine ⟨h'', f1, f2.trans e2, f3.trans e3, fun hl hd => f4 (e4 hl hd) hd, fun hl => ?_⟩
  have := f5 (e5 hl).1
  exact ⟨this.1, this.2.trans (e5 hl).2⟩

theorem ext_beginDrop (w : IdleCache.World K Nat) (j : Nat) : Ext (some j) w.handles (w.beginDrop j).1.handles := by
  unfold IdleCache.World.beginDrop
  cases hj : w.handles[j]? with
  | none => exact Ext.refl _ _
  | some x =>
    dsimp only
    split
    · rename_i hl
      intro i h hi
      dsimp only
      rw [List.getElem?_set]
      split
      · rename_i e; subst e
        rw [hj] at hi; cases hi
        rw [if_pos (lt_of_getElem?_some hj)]
        exact ⟨_, rfl, rfl, rfl, fun _ hd => absurd rfl hd, fun hn => absurd hl hn⟩
      · exact ⟨h, hi, rfl, rfl, fun h _ => h, fun h => ⟨h, rfl⟩⟩
    · exact Ext.refl _ _

/-- What a drop leaves of a handle. -/
theorem beginDrop_get (w : IdleCache.World K Nat) (j : Nat) (h : IdleCache.Held K Nat) (hj : w.handles[j]? = some h) (hl : h.life = .live) :
    (w.beginDrop j).1.handles[j]? = some { h with life := .notified, notifiedAt := w.now } := by
  unfold IdleCache.World.beginDrop
  rw [hj]
  dsimp only
  rw [if_pos hl]
  dsimp only
  rw [List.getElem?_set_self (lt_of_getElem?_some hj)]

theorem ext_finishDrop (w : IdleCache.World K Nat) (j : Nat) (d : Option Nat) : Ext d w.handles (w.finishDrop j).1.handles := by
  unfold IdleCache.World.finishDrop
  cases hj : w.handles[j]? with
  | none => exact Ext.refl _ _
  | some x =>
    dsimp only
    split
    · rename_i hl
      intro i h hi
      dsimp only
      rw [List.getElem?_set]
      split
      · rename_i e; subst e
        rw [hj] at hi; cases hi
        rw [if_pos (lt_of_getElem?_some hj)]
        exact ⟨_, rfl, rfl, rfl, (fun h => by rw [hl] at h; cases h), fun _ => ⟨by simp, rfl⟩⟩
      · exact ⟨h, hi, rfl, rfl, fun h _ => h, fun h => ⟨h, rfl⟩⟩
    · exact Ext.refl _ _

theorem wake_handles (idle : Nat) (w : IdleCache.World K Nat) (id : Nat) : (w.wake idle id).1.handles = w.handles := by
  unfold IdleCache.World.wake
  repeat' (first | split | rfl)

theorem expire_handles (w : IdleCache.World K Nat) (id : Nat) : (w.expire id).1.handles = w.handles := by
  unfold IdleCache.World.expire
  repeat' (first | split | rfl)

theorem expire_now (w : IdleCache.World K Nat) (id : Nat) : (w.expire id).1.now = w.now := by
  unfold IdleCache.World.expire
  repeat' (first | split | rfl)

theorem wake_now (idle : Nat) (w : IdleCache.World K Nat) (id : Nat) : (w.wake idle id).1.now = w.now := by
  unfold IdleCache.World.wake
  repeat' (first | split | rfl)

theorem beginDrop_now (w : IdleCache.World K Nat) (j : Nat) : (w.beginDrop j).1.now = w.now := by
  unfold IdleCache.World.beginDrop
  repeat' (first | split | rfl)

theorem finishDrop_now (w : IdleCache.World K Nat) (j : Nat) : (w.finishDrop j).1.now = w.now := by
  unfold IdleCache.World.finishDrop
  repeat' (first | split | rfl)

theorem cloneHandle_now (w : IdleCache.World K Nat) (j : Nat) : (w.cloneHandle j).1.now = w.now := by
  unfold IdleCache.World.cloneHandle
  repeat' (first | split | rfl)

/-- A lookup gives a service, and a handle of it. -/
theorem insert_gives (idle : Nat) (w : IdleCache.World K Nat) (I : IdleCache.Inv idle w) (k : K) (n : Nat) :
    (w.insertIfVacant k n).1.now = w.now ∧
    ∃ v h, given (w.insertIfVacant k n).2 = some v ∧ (w.insertIfVacant k n).1.handles = w.handles ++ [h] ∧
      h.key = k ∧ h.value = v ∧ h.life = .live := by
  unfold IdleCache.World.insertIfVacant
  cases he : w.entries k with
  | none => exact ⟨rfl, n, _, rfl, rfl, rfl, rfl, rfl⟩
  | some e =>
    have hc := (I.cached he).2
    dsimp only
    unfold IdleCache.World.cached at hc ⊢
    split at hc
    · split at hc
      · rename_i h1 h2
        rw [if_pos h2]
        exact ⟨rfl, e.value, _, rfl, rfl, rfl, rfl, rfl⟩
      · cases hc
    · exact ⟨rfl, e.value, _, rfl, rfl, rfl, rfl, rfl⟩

def Live (hs : Handles K) (j : Nat) (r : Req K) : Prop :=
  ∃ h, hs[j]? = some h ∧ h.key = r.key ∧ h.value = r.served ∧ h.life = .live

def Dead (hs : Handles K) (r : Req K) (t : Nat) : Prop :=
  ∃ (j : Nat) (h : IdleCache.Held K Nat), hs[j]? = some h ∧ h.key = r.key ∧ h.value = r.served ∧ h.life ≠ .live ∧ h.notifiedAt = t

/-- A request has the handle that its status says. -/
def Agree (hs : Handles K) : Status → Option (Req K) → Prop
  | .unsent, none => True
  | .waiting, some r => ∃ j, r.stage = .waiting j ∧ Live hs j r
  | .called, some r => ∃ j, r.stage = .called j ∧ Live hs j r
  | .reading, some r => ∃ j, r.stage = .reading j ∧ Live hs j r
  | .over t, some r => r.stage = .over ∧ Dead hs r t
  | _, _ => False

theorem Live.ext {d : Option Nat} {hs hs' : Handles K} {j : Nat} {r : Req K} (h : Live hs j r) (he : Ext d hs hs') (hd : d ≠ some j) :
    Live hs' j r := by
  obtain ⟨x, h1, h2, h3, h4⟩ := h
  obtain ⟨x', e1, e2, e3, e4, _⟩ := he j x h1
  exact ⟨x', e1, e2.trans h2, e3.trans h3, e4 h4 hd⟩

theorem Dead.ext {d : Option Nat} {hs hs' : Handles K} {r : Req K} {t : Nat} (h : Dead hs r t) (he : Ext d hs hs') : Dead hs' r t := by
  obtain ⟨j, x, h1, h2, h3, h4, h5⟩ := h
  obtain ⟨x', e1, e2, e3, _, e5⟩ := he j x h1
  exact ⟨j, x', e1, e2.trans h2, e3.trans h3, (e5 h4).1, (e5 h4).2.trans h5⟩

/-- A request that is not dropped is as it was. -/
theorem Agree.ext {d : Option Nat} {hs hs' : Handles K} {s : Status} {r : Option (Req K)} (h : Agree hs s r) (he : Ext d hs hs')
    (hd : ∀ x, r = some x → ∀ j, x.stage.handle = some j → d ≠ some j) : Agree hs' s r := by
  cases s <;> cases r <;> try exact h
  · obtain ⟨j, h1, h2⟩ := h
    exact ⟨j, h1, h2.ext he (hd _ rfl j (by rw [h1]; rfl))⟩
  · obtain ⟨j, h1, h2⟩ := h
    exact ⟨j, h1, h2.ext he (hd _ rfl j (by rw [h1]; rfl))⟩
  · obtain ⟨j, h1, h2⟩ := h
    exact ⟨j, h1, h2.ext he (hd _ rfl j (by rw [h1]; rfl))⟩
  · exact ⟨h.1, h.2.ext he⟩

structure Inv (w : World K) (ops : List (Op K)) : Prop where
  keys : w.reqs.map Req.key = keys ops
  now : w.cache.now = clock ops
  agree : ∀ i, Agree w.cache.handles (status i ops) w.reqs[i]?
  /-- no two requests have the same handle -/
  own : ∀ (i i' : Nat) r r' j, w.reqs[i]? = some r → w.reqs[i']? = some r' → r.stage.handle = some j → r'.stage.handle = some j → i = i'

theorem Inv.lt {w : World K} {ops : List (Op K)} (I : Inv w ops) {i : Nat} {r : Req K} (h : w.reqs[i]? = some r) {j : Nat}
    (hj : r.stage.handle = some j) : Live w.cache.handles j r := by
  have ha := I.agree i
  rw [h] at ha
  cases hs : status i ops <;> rw [hs] at ha
  · cases ha
  · obtain ⟨j', h1, h2⟩ := ha; rw [h1] at hj; cases hj; exact h2
  · obtain ⟨j', h1, h2⟩ := ha; rw [h1] at hj; cases hj; exact h2
  · obtain ⟨j', h1, h2⟩ := ha; rw [h1] at hj; cases hj; exact h2
  · rw [ha.1] at hj; cases hj

theorem Agree.none {hs : Handles K} {s : Status} (h : Agree hs s none) : s = .unsent := by
  cases s <;> first | rfl | cases h

theorem next_other (fresh i : Nat) (s : Stage) (o : Op K) (h : ∀ i', (∃ ok, o = .ready i' ok ∨ o = .respond i' ok) ∨ o = .finish i' → i' ≠ i) :
    s.next fresh i o = s := by
  cases o with
  | ready i' ok => have := h i' (.inl ⟨ok, .inl rfl⟩); cases s <;> simp [Stage.next, this]
  | respond i' ok => have := h i' (.inl ⟨ok, .inr rfl⟩); cases s <;> simp [Stage.next, this]
  | finish i' => have := h i' (.inr rfl); simp [Stage.next, this]
  | _ => rfl

theorem see_other (i n now : Nat) (s : Status) (o : Op K) (h : ∀ i', (∃ ok, o = .ready i' ok ∨ o = .respond i' ok) ∨ o = .finish i' → i' ≠ i)
    (hr : ∀ k, o ≠ .request k) : s.see i n now o = s := by
  cases o with
  | request k => exact absurd rfl (hr k)
  | ready i' ok => have := h i' (.inl ⟨ok, .inl rfl⟩); cases s <;> simp [Status.see, this]
  | respond i' ok => have := h i' (.inl ⟨ok, .inr rfl⟩); cases s <;> simp [Status.see, this]
  | finish i' => have := h i' (.inr rfl); cases s <;> simp [Status.see, this]
  | release | expire | wake | tick => cases s <;> rfl

theorem reqs_get (idle : Nat) (w : World K) (o : Op K) (hr : ∀ k, o ≠ .request k) (i : Nat) :
    (w.step idle o).reqs[i]? = (w.reqs[i]?).map fun r => { r with stage := r.stage.next w.cache.handles.length i o } := by
  have : (w.step idle o).reqs = w.reqs.mapIdx fun i r => { r with stage := r.stage.next w.cache.handles.length i o } := by
    cases o <;> first | rfl | exact absurd rfl (hr _)
  rw [this, List.getElem?_mapIdx]

/-- A step of request `i'` that drops handle `d` of it. -/
theorem Inv.act {idle : Nat} {w : World K} {ops : List (Op K)} (I : Inv w ops) (o : Op K) (i' : Nat)
    (hr : ∀ k, o ≠ .request k)
    (ho : ∀ i, i' ≠ i → ∀ i'', (∃ ok, o = .ready i'' ok ∨ o = .respond i'' ok) ∨ o = .finish i'' → i'' ≠ i)
    (hclk : clock [o] = 0) (hnow : (w.step idle o).cache.now = w.cache.now)
    (d : Option Nat) (he : Ext d w.cache.handles (w.step idle o).cache.handles)
    (hd : ∀ j, d = some j → ∃ r, w.reqs[i']? = some r ∧ r.stage.handle = some j)
    (hme : ∀ r, w.reqs[i']? = some r →
      Agree (w.step idle o).cache.handles (status i' (ops ++ [o])) (some { r with stage := r.stage.next w.cache.handles.length i' o }))
    (hown : ∀ r j, w.reqs[i']? = some r → (r.stage.next w.cache.handles.length i' o).handle = some j →
      r.stage.handle = some j ∨ w.cache.handles.length ≤ j) : Inv (w.step idle o) (ops ++ [o]) where
  keys := by
    rw [keys_snoc, ← I.keys]
    have : Retain.keys [o] = [] := by cases o <;> first | rfl | exact absurd rfl (hr _)
    rw [this, List.append_nil]
    refine List.ext_getElem? fun i => ?_
    rw [List.getElem?_map, List.getElem?_map, reqs_get idle w o hr]
    cases w.reqs[i]? <;> rfl
  now := by rw [clock_snoc, hclk, hnow, I.now]; rfl
  agree := by
    intro i
    rw [reqs_get idle w o hr]
    by_cases hi : i' = i
    · subst hi
      cases hg : w.reqs[i']? with
      | none =>
        have h0 := I.agree i'
        rw [hg] at h0
        rw [status_snoc, h0.none]
        have : Status.see i' (Retain.keys ops).length (clock ops) .unsent o = .unsent := by
          cases o <;> first | rfl | exact absurd rfl (hr _)
        rw [this]; trivial
      | some r => exact hme r hg
    · rw [status_snoc, see_other _ _ _ _ _ (ho i hi) hr]
      have h0 := I.agree i
      cases hg : w.reqs[i]? with
      | none => rw [hg] at h0; rw [h0.none]; trivial
      | some r =>
        rw [hg] at h0
        simp only [Option.map_some, next_other _ _ _ _ (ho i hi)]
        refine h0.ext he ?_
        intro x hx j hj hdj
        cases hx
        obtain ⟨r', h1, h2⟩ := hd j hdj
        exact hi (I.own i' i r' r j h1 hg h2 hj)
  own := by
    intro a b r r' j ha hb hja hjb
    rw [reqs_get idle w o hr] at ha hb
    cases hga : w.reqs[a]? with
    | none => rw [hga] at ha; cases ha
    | some ra =>
      cases hgb : w.reqs[b]? with
      | none => rw [hgb] at hb; cases hb
      | some rb =>
        rw [hga] at ha; rw [hgb] at hb
        cases ha; cases hb
        dsimp only at hja hjb
        by_cases h1 : i' = a
        · by_cases h2 : i' = b
          · exact h1.symm.trans h2
          · rw [next_other _ _ _ _ (ho b h2)] at hjb
            rcases hown ra j (by rw [h1]; exact hga) (by rw [h1]; exact hja) with h | h
            · exact I.own a b ra rb j hga hgb h hjb
            · obtain ⟨x, hx, _⟩ := I.lt hgb hjb
              have := lt_of_getElem?_some hx
              omega
        · rw [next_other _ _ _ _ (ho a h1)] at hja
          by_cases h2 : i' = b
          · rcases hown rb j (by rw [h2]; exact hgb) (by rw [h2]; exact hjb) with h | h
            · exact I.own a b ra rb j hga hgb hja h
            · obtain ⟨x, hx, _⟩ := I.lt hga hja
              have := lt_of_getElem?_some hx
              omega
          · rw [next_other _ _ _ _ (ho b h2)] at hjb
            exact I.own a b ra rb j hga hgb hja hjb

/-- A step of no request. -/
theorem Inv.other {idle : Nat} {w : World K} {ops : List (Op K)} (I : Inv w ops) (o : Op K)
    (hr : ∀ k, o ≠ .request k)
    (ho : ∀ i i'' : Nat, (∃ ok, o = .ready i'' ok ∨ o = .respond i'' ok) ∨ o = .finish i'' → i'' ≠ i)
    (hnow : (w.step idle o).cache.now = w.cache.now + clock [o])
    (he : Ext none w.cache.handles (w.step idle o).cache.handles) : Inv (w.step idle o) (ops ++ [o]) where
  keys := by
    rw [keys_snoc, ← I.keys]
    have : Retain.keys [o] = [] := by cases o <;> first | rfl | exact absurd rfl (hr _)
    rw [this, List.append_nil]
    refine List.ext_getElem? fun i => ?_
    rw [List.getElem?_map, List.getElem?_map, reqs_get idle w o hr]
    cases w.reqs[i]? <;> rfl
  now := by rw [clock_snoc, hnow, I.now]
  agree := by
    intro i
    rw [reqs_get idle w o hr, status_snoc, see_other _ _ _ _ _ (ho i) hr]
    have h0 := I.agree i
    cases hg : w.reqs[i]? with
    | none => rw [hg] at h0; rw [h0.none]; trivial
    | some r =>
      rw [hg] at h0
      simp only [Option.map_some, next_other _ _ _ _ (ho i)]
      exact h0.ext he (fun _ _ _ _ h => nomatch h)
  own := by
    intro a b r r' j ha hb hja hjb
    rw [reqs_get idle w o hr] at ha hb
    cases hga : w.reqs[a]? with
    | none => rw [hga] at ha; cases ha
    | some ra =>
      cases hgb : w.reqs[b]? with
      | none => rw [hgb] at hb; cases hb
      | some rb =>
        rw [hga] at ha; rw [hgb] at hb
        cases ha; cases hb
        dsimp only at hja hjb
        rw [next_other _ _ _ _ (ho a)] at hja
        rw [next_other _ _ _ _ (ho b)] at hjb
        exact I.own a b ra rb j hga hgb hja hjb

theorem Inv.request {idle : Nat} {w : World K} {ops : List (Op K)} (I : Inv w ops) (hc : IdleCache.Inv idle w.cache) (k : K) :
    Inv (w.step idle (.request k)) (ops ++ [.request k]) := by
  obtain ⟨hnow, v, h, h1, h2, h3, h4, h5⟩ := insert_gives idle w.cache hc k w.built
  have hreqs : (w.step idle (.request k)).reqs = w.reqs ++ [{ key := k, served := v, stage := .waiting w.cache.handles.length }] := by
    simp only [World.step, h1]
  have hcache : (w.step idle (.request k)).cache = (w.cache.insertIfVacant k w.built).1 := rfl
  have hlen : (Retain.keys ops).length = w.reqs.length := by rw [← I.keys, List.length_map]
  refine ⟨?_, ?_, ?_, ?_⟩
  · rw [hreqs, keys_snoc, ← I.keys]; simp [Retain.keys]
  · rw [hcache, hnow, clock_snoc, I.now]; simp [clock]
  · intro i
    rw [hreqs, hcache, h2, status_snoc, hlen]
    have h0 := I.agree i
    by_cases hi : i < w.reqs.length
    · rw [List.getElem?_append_left hi]
      rw [List.getElem?_eq_getElem hi] at h0 ⊢
      have : Status.see i w.reqs.length (clock ops) (status i ops) (.request k) = status i ops := by
        cases hs : status i ops <;> first | rfl | (rw [hs] at h0; cases h0)
      rw [this]
      exact h0.ext (Ext.snoc none _ _) (fun _ _ _ _ h => nomatch h)
    · rw [List.getElem?_append_right (by omega)]
      rw [List.getElem?_eq_none (by omega)] at h0
      rw [h0.none]
      by_cases he : w.reqs.length = i
      · simp only [Status.see, he, if_pos, Nat.sub_self]
        exact ⟨_, rfl, h, by simp, h3, h4, h5⟩
      · rw [List.getElem?_eq_none (by simp; omega)]
        simp only [Status.see, if_neg he]
        trivial
  · intro a b r r' j ha hb hja hjb
    rw [hreqs, List.getElem?_append] at ha hb
    have old : ∀ (a : Nat) r, w.reqs[a]? = some r → r.stage.handle = some j → j < w.cache.handles.length := by
      intro a r ha hj
      obtain ⟨x, hx, _⟩ := I.lt ha hj
      exact lt_of_getElem?_some hx
    have new : ∀ (a : Nat) r, ¬ a < w.reqs.length → [({ key := k, served := v, stage := .waiting w.cache.handles.length } : Req K)][a - w.reqs.length]? = some r →
        r.stage.handle = some j → a = w.reqs.length ∧ j = w.cache.handles.length := by
      intro a r ha h hj
      have := lt_of_getElem?_some h
      simp only [List.length_singleton] at this
      have e : a - w.reqs.length = 0 := by omega
      rw [e] at h
      cases h
      cases hj
      exact ⟨by omega, rfl⟩
    split at ha <;> split at hb
    · exact I.own a b r r' j ha hb hja hjb
    · rename_i h1 h2
      have := old a r ha hja
      have := (new b r' h2 hb hjb).2
      omega
    · rename_i h1 h2
      have := old b r' hb hjb
      have := (new a r h1 ha hja).2
      omega
    · rename_i h1 h2
      exact (new a r h1 ha hja).1.trans (new b r' h2 hb hjb).1.symm

/-- The drop of the handle of a request. -/
theorem dead_of_drop {w : World K} {j : Nat} {r : Req K} (h : Live w.cache.handles j r) (st : Stage) (c : IdleCache.World K Nat)
    (hc : ∃ h, c.handles[j]? = some h ∧ h.key = r.key ∧ h.value = r.served ∧ h.life = .live) :
    Dead (c.beginDrop j).1.handles { r with stage := st } c.now := by
  obtain ⟨x, h1, h2, h3, h4⟩ := hc
  exact ⟨j, _, beginDrop_get c j x h1 h4, h2, h3, by simp, rfl⟩

theorem Inv.step {idle : Nat} {w : World K} {ops : List (Op K)} (I : Inv w ops) (hc : IdleCache.Inv idle w.cache) (o : Op K) :
    Inv (w.step idle o) (ops ++ [o]) := by
  cases o with
  | request k => exact I.request hc k
  | release j =>
    refine I.other _ (by simp) (by simp) ?_ ?_
    · show (w.cache.finishDrop j).1.now = _
      rw [finishDrop_now]; rfl
    · exact ext_finishDrop w.cache j none
  | expire id =>
    refine I.other _ (by simp) (by simp) ?_ ?_
    · show (w.cache.expire id).1.now = _
      rw [expire_now]; rfl
    · show Ext none _ (w.cache.expire id).1.handles
      rw [expire_handles]; exact Ext.refl _ _
  | wake id =>
    refine I.other _ (by simp) (by simp) ?_ ?_
    · show (w.cache.wake idle id).1.now = _
      rw [wake_now]; rfl
    · show Ext none _ (w.cache.wake idle id).1.handles
      rw [wake_handles]; exact Ext.refl _ _
  | tick d =>
    refine I.other _ (by simp) (by simp) ?_ ?_
    · show w.cache.now + d = _
      simp [clock]
    · exact Ext.refl _ _
  | ready i ok =>
    have ho : ∀ i', i ≠ i' → ∀ i'', (∃ ok', Op.ready (K := K) i ok = .ready i'' ok' ∨ Op.ready (K := K) i ok = .respond i'' ok') ∨
        Op.ready (K := K) i ok = .finish i'' → i'' ≠ i' := by
      rintro i' hi i'' (⟨ok', h | h⟩ | h) <;> cases h; exact hi
    have hstep : (w.step idle (.ready i ok)).cache = (IdleCache.run idle w.cache (w.plan (.ready i ok))).1 := rfl
    cases hg : w.reqs[i]? with
    | none =>
      have hp : w.plan (.ready i ok) = [] := by simp [World.plan, hg]
      rw [hp] at hstep
      refine I.act _ i (by simp) ho rfl (by rw [hstep]; rfl) none (by rw [hstep]; exact Ext.refl _ _) (by simp) ?_ ?_
      · intro r h; rw [hg] at h; cases h
      · intro r j h; rw [hg] at h; cases h
    | some r =>
      have h0 := I.agree i
      rw [hg] at h0
      by_cases hs : ∃ j, r.stage = .waiting j
      · obtain ⟨j, hj⟩ := hs
        have hlive := I.lt hg (j := j) (by rw [hj]; rfl)
        have hst : status i ops = .waiting := by
          cases hs : status i ops <;> rw [hs] at h0
          · cases h0
          · obtain ⟨_, h, _⟩ := h0; rw [hj] at h; cases h
          · obtain ⟨_, h, _⟩ := h0; rw [hj] at h; cases h
          · have := h0.1; rw [hj] at this; cases this
        cases ok with
        | true =>
          have hp : w.plan (.ready i true) = [.cloneHandle j, .beginDrop j] := by simp [World.plan, hg, hj]
          rw [hp] at hstep
          obtain ⟨x, x1, x2, x3, x4⟩ := hlive
          have hcl : (w.cache.cloneHandle j).1.handles = w.cache.handles ++ [x] := by
            unfold IdleCache.World.cloneHandle; rw [x1]; simp [x4]
          have hc2 : (w.step idle (.ready i true)).cache = ((w.cache.cloneHandle j).1.beginDrop j).1 := hstep
          refine I.act _ i (by simp) ho rfl (by rw [hc2, beginDrop_now, cloneHandle_now]) (some j) ?_ ?_ ?_ ?_
          · rw [hc2]
            refine Ext.trans (b := (w.cache.cloneHandle j).1.handles) ?_ (ext_beginDrop _ _)
            rw [hcl]; exact Ext.snoc _ _ _
          · intro j' e; cases e; exact ⟨r, hg, by rw [hj]; rfl⟩
          · intro r' hr'
            rw [hg] at hr'; cases hr'
            rw [status_snoc, hst, hc2]
            simp only [Status.see, if_true, hj, Stage.next]
            refine ⟨_, rfl, ?_⟩
            have hnew : Live (w.cache.cloneHandle j).1.handles w.cache.handles.length { r with stage := .called w.cache.handles.length } :=
              ⟨x, by rw [hcl]; simp, x2, x3, x4⟩
            refine hnew.ext (ext_beginDrop _ j) ?_
            have := lt_of_getElem?_some x1
            simp only [ne_eq, Option.some.injEq]; omega
          · intro r' j' hr' hj'
            rw [hg] at hr'; cases hr'
            simp only [hj, Stage.next, if_true, Stage.handle, Option.some.injEq] at hj'
            exact .inr (by omega)
        | false =>
          have hp : w.plan (.ready i false) = [.beginDrop j] := by simp [World.plan, hg, hj]
          rw [hp] at hstep
          have hc2 : (w.step idle (.ready i false)).cache = (w.cache.beginDrop j).1 := hstep
          refine I.act _ i (by simp) ho rfl (by rw [hc2, beginDrop_now]) (some j) (by rw [hc2]; exact ext_beginDrop _ _) ?_ ?_ ?_
          · intro j' e; cases e; exact ⟨r, hg, by rw [hj]; rfl⟩
          · intro r' hr'
            rw [hg] at hr'; cases hr'
            rw [status_snoc, hst, hc2, ← I.now]
            simp only [Status.see, if_true, hj, Stage.next]
            exact ⟨rfl, dead_of_drop hlive _ _ hlive⟩
          · intro r' j' hr' hj'
            rw [hg] at hr'; cases hr'
            simp [hj, Stage.next, Stage.handle] at hj'
      · have hp : w.plan (.ready i ok) = [] := by
          simp only [World.plan, hg, Option.map_some]
          cases hs2 : r.stage <;> first | rfl | exact absurd ⟨_, hs2⟩ hs
        rw [hp] at hstep
        have hn : r.stage.next w.cache.handles.length i (Op.ready (K := K) i ok) = r.stage := by
          cases hs2 : r.stage <;> first | rfl | exact absurd ⟨_, hs2⟩ hs
        refine I.act _ i (by simp) ho rfl (by rw [hstep]; rfl) none (by rw [hstep]; exact Ext.refl _ _) (by simp) ?_ ?_
        · intro r' hr'
          rw [hg] at hr'; cases hr'
          rw [hstep, hn, status_snoc]
          have : Status.see i (Retain.keys ops).length (clock ops) (status i ops) (Op.ready (K := K) i ok) = status i ops := by
            cases hs2 : status i ops <;> first | rfl | (rw [hs2] at h0; obtain ⟨j, h, _⟩ := h0; exact absurd ⟨j, h⟩ hs)
          rw [this]; exact h0
        · intro r' j' hr' hj'
          rw [hg] at hr'; cases hr'
          rw [hn] at hj'; exact .inl hj'
  | respond i ok =>
    have ho : ∀ i', i ≠ i' → ∀ i'', (∃ ok', Op.respond (K := K) i ok = .ready i'' ok' ∨ Op.respond (K := K) i ok = .respond i'' ok') ∨
        Op.respond (K := K) i ok = .finish i'' → i'' ≠ i' := by
      rintro i' hi i'' (⟨ok', h | h⟩ | h) <;> cases h; exact hi
    have hstep : (w.step idle (.respond i ok)).cache = (IdleCache.run idle w.cache (w.plan (.respond i ok))).1 := rfl
    cases hg : w.reqs[i]? with
    | none =>
      have hp : w.plan (.respond i ok) = [] := by simp [World.plan, hg]
      rw [hp] at hstep
      refine I.act _ i (by simp) ho rfl (by rw [hstep]; rfl) none (by rw [hstep]; exact Ext.refl _ _) (by simp) ?_ ?_
      · intro r h; rw [hg] at h; cases h
      · intro r j h; rw [hg] at h; cases h
    | some r =>
      have h0 := I.agree i
      rw [hg] at h0
      by_cases hs : ∃ j, r.stage = .called j
      · obtain ⟨j, hj⟩ := hs
        have hlive := I.lt hg (j := j) (by rw [hj]; rfl)
        have hst : status i ops = .called := by
          cases hs : status i ops <;> rw [hs] at h0
          · cases h0
          · obtain ⟨_, h, _⟩ := h0; rw [hj] at h; cases h
          · obtain ⟨_, h, _⟩ := h0; rw [hj] at h; cases h
          · have := h0.1; rw [hj] at this; cases this
        cases ok with
        | true =>
          have hp : w.plan (.respond i true) = [] := by simp [World.plan, hg, hj]
          rw [hp] at hstep
          refine I.act _ i (by simp) ho rfl (by rw [hstep]; rfl) none (by rw [hstep]; exact Ext.refl _ _) (by simp) ?_ ?_
          · intro r' hr'
            rw [hg] at hr'; cases hr'
            rw [status_snoc, hst, hstep]
            simp only [Status.see, if_true, hj, Stage.next]
            obtain ⟨x, hx⟩ := hlive
            exact ⟨_, rfl, x, hx⟩
          · intro r' j' hr' hj'
            rw [hg] at hr'; cases hr'
            simp only [hj, Stage.next, if_true, Stage.handle] at hj' ⊢
            exact .inl hj'
        | false =>
          have hp : w.plan (.respond i false) = [.beginDrop j] := by simp [World.plan, hg, hj]
          rw [hp] at hstep
          have hc2 : (w.step idle (.respond i false)).cache = (w.cache.beginDrop j).1 := hstep
          refine I.act _ i (by simp) ho rfl (by rw [hc2, beginDrop_now]) (some j) (by rw [hc2]; exact ext_beginDrop _ _) ?_ ?_ ?_
          · intro j' e; cases e; exact ⟨r, hg, by rw [hj]; rfl⟩
          · intro r' hr'
            rw [hg] at hr'; cases hr'
            rw [status_snoc, hst, hc2, ← I.now]
            simp only [Status.see, if_true, hj, Stage.next]
            exact ⟨rfl, dead_of_drop hlive _ _ hlive⟩
          · intro r' j' hr' hj'
            rw [hg] at hr'; cases hr'
            simp [hj, Stage.next, Stage.handle] at hj'
      · have hp : w.plan (.respond i ok) = [] := by
          simp only [World.plan, hg, Option.map_some]
          cases hs2 : r.stage <;> first | rfl | exact absurd ⟨_, hs2⟩ hs
        rw [hp] at hstep
        have hn : r.stage.next w.cache.handles.length i (Op.respond (K := K) i ok) = r.stage := by
          cases hs2 : r.stage <;> first | rfl | exact absurd ⟨_, hs2⟩ hs
        refine I.act _ i (by simp) ho rfl (by rw [hstep]; rfl) none (by rw [hstep]; exact Ext.refl _ _) (by simp) ?_ ?_
        · intro r' hr'
          rw [hg] at hr'; cases hr'
          rw [hstep, hn, status_snoc]
          have : Status.see i (Retain.keys ops).length (clock ops) (status i ops) (Op.respond (K := K) i ok) = status i ops := by
            cases hs2 : status i ops <;> first | rfl | (rw [hs2] at h0; obtain ⟨j, h, _⟩ := h0; exact absurd ⟨j, h⟩ hs)
          rw [this]; exact h0
        · intro r' j' hr' hj'
          rw [hg] at hr'; cases hr'
          rw [hn] at hj'; exact .inl hj'
  | finish i =>
    have ho : ∀ i', i ≠ i' → ∀ i'', (∃ ok', Op.finish (K := K) i = .ready i'' ok' ∨ Op.finish (K := K) i = .respond i'' ok') ∨
        Op.finish (K := K) i = .finish i'' → i'' ≠ i' := by
      rintro i' hi i'' (⟨ok', h | h⟩ | h) <;> cases h; exact hi
    have hstep : (w.step idle (.finish i)).cache = (IdleCache.run idle w.cache (w.plan (.finish i))).1 := rfl
    cases hg : w.reqs[i]? with
    | none =>
      have hp : w.plan (.finish i) = [] := by simp [World.plan, hg]
      rw [hp] at hstep
      refine I.act _ i (by simp) ho rfl (by rw [hstep]; rfl) none (by rw [hstep]; exact Ext.refl _ _) (by simp) ?_ ?_
      · intro r h; rw [hg] at h; cases h
      · intro r j h; rw [hg] at h; cases h
    | some r =>
      have h0 := I.agree i
      rw [hg] at h0
      cases hj : r.stage.handle with
      | some j =>
        have hlive := I.lt hg hj
        have hst : Status.see i (Retain.keys ops).length (clock ops) (status i ops) (Op.finish (K := K) i) = .over (clock ops) := by
          cases hs : status i ops <;> rw [hs] at h0
          · cases h0
          · simp [Status.see]
          · simp [Status.see]
          · simp [Status.see]
          · rw [h0.1] at hj; cases hj
        have hp : w.plan (.finish i) = [.beginDrop j] := by simp [World.plan, hg, hj]
        rw [hp] at hstep
        have hc2 : (w.step idle (.finish i)).cache = (w.cache.beginDrop j).1 := hstep
        refine I.act _ i (by simp) ho rfl (by rw [hc2, beginDrop_now]) (some j) (by rw [hc2]; exact ext_beginDrop _ _) ?_ ?_ ?_
        · intro j' e; cases e; exact ⟨r, hg, hj⟩
        · intro r' hr'
          rw [hg] at hr'; cases hr'
          rw [status_snoc, hst, hc2, ← I.now]
          refine ⟨by simp [Stage.next], dead_of_drop hlive _ _ hlive⟩
        · intro r' j' hr' hj'
          rw [hg] at hr'; cases hr'
          simp [Stage.next, Stage.handle] at hj'
      | none =>
        have hover : r.stage = .over := by cases hs : r.stage <;> rw [hs] at hj <;> first | rfl | cases hj
        have hp : w.plan (.finish i) = [] := by simp [World.plan, hg, hj]
        rw [hp] at hstep
        refine I.act _ i (by simp) ho rfl (by rw [hstep]; rfl) none (by rw [hstep]; exact Ext.refl _ _) (by simp) ?_ ?_
        · intro r' hr'
          rw [hg] at hr'; cases hr'
          have hn : r.stage.next w.cache.handles.length i (Op.finish (K := K) i) = r.stage := by simp [Stage.next, hover]
          rw [hstep, hn, status_snoc]
          have : Status.see i (Retain.keys ops).length (clock ops) (status i ops) (Op.finish (K := K) i) = status i ops := by
            cases hs2 : status i ops <;> first | rfl | (rw [hs2] at h0; obtain ⟨j, h, _⟩ := h0; rw [hover] at h; cases h)
          rw [this]; exact h0
        · intro r' j' hr' hj'
          simp [Stage.next, Stage.handle] at hj'

theorem inv_after (idle : Nat) (ops : List (Op K)) : Inv (after idle ops) ops := by
  induction ops using snoc_induction with
  | nil =>
    refine ⟨rfl, rfl, fun i => ?_, ?_⟩
    · show Agree [] .unsent ([] : List (Req K))[i]?
      rw [List.getElem?_nil]; trivial
    · intro i i' r r' j h; cases (List.getElem?_nil (i := i)).symm.trans h
  | snoc ops o ih =>
    rw [after_snoc]
    exact ih.step (cache_inv idle ops) o

/-! ### Theorems -/

/-- The handle of a request in progress. -/
theorem in_progress (idle : Nat) (ops : List (Op K)) (i : Nat) (h : (status i ops).inProgress = true) :
    ∃ r j, (after idle ops).reqs[i]? = some r ∧ Live (after idle ops).cache.handles j r := by
  have I := inv_after idle ops
  have ha := I.agree i
  cases hg : (after idle ops).reqs[i]? with
  | none => rw [hg] at ha; rw [ha.none] at h; cases h
  | some r =>
    rw [hg] at ha
    refine ⟨r, ?_⟩
    cases hs : status i ops <;> rw [hs] at ha h
    · cases h
    · obtain ⟨j, _, h⟩ := ha; exact ⟨j, rfl, h⟩
    · obtain ⟨j, _, h⟩ := ha; exact ⟨j, rfl, h⟩
    · obtain ⟨j, _, h⟩ := ha; exact ⟨j, rfl, h⟩
    · cases h

/-- **While a request is in progress — until its response's body was dropped — its service is kept**: any further request for its
key is given the same service. -/
theorem C114_a_service_is_kept_while_in_use (idle : Nat) (ops : List (Op K)) (i : Nat) (k : K)
    (hk : (keys ops)[i]? = some k) (h : (status i ops).inProgress = true) :
    ∃ v, served idle i ops = some v ∧ served idle (keys ops).length (ops ++ [.request k]) = some v := by
  obtain ⟨r, j, hr, x, h1, h2, h3, h4⟩ := in_progress idle ops i h
  have I := inv_after idle ops
  have hrk : r.key = k := by
    have := congrArg (fun l : List K => l[i]?) I.keys
    simp only [List.getElem?_map, hr, hk, Option.map_some] at this
    exact Option.some.inj this
  refine ⟨r.served, by simp [served, hr], ?_⟩
  obtain ⟨hh, e1, e2, _⟩ := cache_run idle ops (init : World K)
  have hl := IdleCache.C06_lookup_shares_value idle hh x
    (by rw [show IdleCache.after idle hh = (after idle ops).cache from e1.symm]; exact List.mem_of_getElem? h1)
    (by unfold IdleCache.Held.inUse; rw [h4]; simp) (e2 _)
  rw [show IdleCache.after idle hh = (after idle ops).cache from e1.symm, h2, hrk, h3] at hl
  have hins : ((after idle ops).cache.insertIfVacant k (after idle ops).built).2 = .found r.served := by
    unfold IdleCache.World.lookup at hl
    rw [← get_found_eq_insert]
    · exact hl
    · intro hn; rw [get_missing _ _ hn] at hl; cases hl
  unfold served
  rw [after_snoc]
  simp only [World.step, hins, given]
  rw [show (keys ops).length = (after idle ops).reqs.length by rw [← I.keys, List.length_map]]
  simp

/-- **All requests in progress for a key are served by one service.** -/
theorem C114_one_service_per_key (idle : Nat) (ops : List (Op K)) (i i' : Nat) (hk : (keys ops)[i]? = (keys ops)[i']?)
    (h : (status i ops).inProgress = true) (h' : (status i' ops).inProgress = true) : served idle i ops = served idle i' ops := by
  have I := inv_after idle ops
  obtain ⟨r, j, hr, x, h1, h2, h3, h4⟩ := in_progress idle ops i h
  obtain ⟨r', j', hr', x', h1', h2', h3', h4'⟩ := in_progress idle ops i' h'
  rw [← I.keys, List.getElem?_map, List.getElem?_map, hr, hr'] at hk
  have hk : r.key = r'.key := Option.some.inj hk
  obtain ⟨hh, e1, e2, _⟩ := cache_run idle ops (init : World K)
  have e1 : IdleCache.after idle hh = (after idle ops).cache := e1.symm
  have hone := (IdleCache.C06_one_value_per_key idle hh r.key 0).2 (e2 _) x (by rw [e1]; exact List.mem_of_getElem? h1) x'
    (by rw [e1]; exact List.mem_of_getElem? h1') h2 (h2'.trans hk.symm) (by unfold IdleCache.Held.inUse; rw [h4]; simp)
    (by unfold IdleCache.Held.inUse; rw [h4']; simp)
  simp [served, hr, hr', ← h3, ← h3', hone]

/-- **A service is dropped only when all requests for its key are over**; and when they have been over for the idle time, if
every eviction task whose timer runs out gets the cache's lock at once. -/
theorem C114_dropped_only_when_idle (idle : Nat) (ops : List (Op K)) (task : Nat)
    (h : ((after idle ops).cache.wake idle task).2 = .evicted) :
    ∃ k, (after idle (ops ++ [.wake task])).cache.entries k = none ∧
      (∀ k' ≠ k, (after idle (ops ++ [.wake task])).cache.entries k' = (after idle ops).cache.entries k') ∧
      ∀ i : Nat, (keys ops)[i]? = some k → ∃ t, status i ops = .over t ∧ ((∀ j, .expire j ∉ ops) → t + idle ≤ clock ops) := by
  obtain ⟨hh, e1, e2, _, _, e5⟩ := cache_run idle ops (init : World K)
  have e1 : IdleCache.after idle hh = (after idle ops).cache := e1.symm
  have hev : ((IdleCache.after idle hh).step idle (.wake task)).2 = .evicted := by rw [e1]; exact h
  obtain ⟨k, v, _, h1, h2, h3, h4, _⟩ := IdleCache.C06_evicted_only_after_idle idle hh task hev
  have h6 : (∀ j, Op.expire j ∉ ops) → ∀ x ∈ (IdleCache.after idle hh).handles, x.key = k → x.notifiedAt + idle ≤ (IdleCache.after idle hh).now := by
    intro hp x hx hk
    obtain ⟨k', v', h1', h7⟩ := IdleCache.C06_prompt_eviction_after_idle idle hh task (fun j hj => hp j (e5 j hj)) hev
    have J := IdleCache.inv_after (K := K) (V := Nat) idle hh
    obtain ⟨t, t1, t2, _⟩ := J.entry k _ task h1 rfl
    obtain ⟨t', t1', t2', _⟩ := J.entry k' _ task h1' rfl
    rw [t1] at t1'; cases t1'
    exact (h7 x hx (by rw [hk, ← t2, t2'])).2
  rw [e1] at h2 h3 h4 h6
  refine ⟨k, by rw [after_snoc]; exact h2, by rw [after_snoc]; exact h3, fun i hk => ?_⟩
  have I := inv_after idle ops
  rw [← I.now]
  rw [← I.keys, List.getElem?_map] at hk
  have ha := I.agree i
  cases hg : (after idle ops).reqs[i]? with
  | none => rw [hg] at hk; cases hk
  | some r =>
    rw [hg] at hk ha
    have hk : r.key = k := Option.some.inj hk
    have dead : ∀ j, ¬ Live (after idle ops).cache.handles j r := by
      rintro j ⟨x, x1, x2, _, x4⟩
      have := h4 x (List.mem_of_getElem? x1) (x2.trans hk)
      rw [x4] at this; cases this
    cases hs : status i ops <;> rw [hs] at ha
    · cases ha
    · obtain ⟨j, _, h⟩ := ha; exact absurd h (dead j)
    · obtain ⟨j, _, h⟩ := ha; exact absurd h (dead j)
    · obtain ⟨j, _, h⟩ := ha; exact absurd h (dead j)
    · obtain ⟨_, j, x, x1, x2, _, _, x5⟩ := ha
      exact ⟨_, rfl, fun hp => by rw [← x5]; exact h6 hp x (List.mem_of_getElem? x1) (x2.trans hk)⟩

/-- **No service is kept for ever**: when all handles of a key are released and its task has noticed, the service is gone
after the idle time if no further request comes for its key, whatever else happens. -/
theorem C114_idle_services_are_dropped (idle : Nat) (ops later : List (Op K)) (k : K) (v task : Nat)
    (he : (after idle ops).cache.entries k = some { value := v, task := some task })
    (hreleased : ∀ h ∈ (after idle ops).cache.handles, h.key = k → h.life = .released)
    (hunused : k ∉ keys later) (htime : idle ≤ clock later) :
    (after idle (ops ++ [.wake task] ++ later ++ [.wake task])).cache.entries k = none := by
  obtain ⟨hh, e1, e2, _⟩ := cache_run idle ops (init : World K)
  have e1 : IdleCache.after idle hh = (after idle ops).cache := e1.symm
  obtain ⟨hl, f1, _, f3, f4, _⟩ := cache_run idle later ((after idle ops).step idle (.wake task))
  have := IdleCache.C06_idle_entry_is_evicted idle hh hl k v task (by rw [e1]; exact he)
    (by rw [e1]; intro h hm hk; unfold IdleCache.Held.inUse; rw [hreleased h hm hk]; simp) (f4 k hunused) (by rw [f3]; exact htime)
  have hc : (after idle (ops ++ [.wake task] ++ later ++ [.wake task])).cache =
      IdleCache.after idle (hh ++ [.wake task] ++ hl ++ [.wake task]) := by
    rw [after_snoc]
    unfold after IdleCache.after
    rw [run_append, run_append, IdleCache.run_append, IdleCache.run_append, IdleCache.run_append]
    show ((run idle ((after idle ops).step idle (.wake task)) later).cache.wake idle task).1 = _
    rw [f1]
    show _ = ((IdleCache.run idle (IdleCache.run idle (IdleCache.after idle hh) [.wake task]).1 hl).1.wake idle task).1
    rw [e1]
    rfl
  rw [hc]
  unfold IdleCache.World.lookup IdleCache.World.get at this
  split at this
  · assumption
  · rename_i e _
    unfold IdleCache.World.cached at this
    split at this
    · split at this <;> cases this
    · cases this

/-- **Every request is given a service**; no lookup panics. -/
theorem C114_every_request_is_given_a_service (idle : Nat) (ops : List (Op K)) (i : Nat) (h : i < (keys ops).length) :
    ∃ v, served idle i ops = some v := by
  have I := inv_after idle ops
  rw [← I.keys, List.length_map] at h
  exact ⟨_, by simp only [served, List.getElem?_eq_getElem h]; rfl⟩

/-- Who is given which service: a service is of one key. -/
structure Named (w : World K) : Prop where
  entry : ∀ k e, w.cache.entries k = some e → e.value < w.built
  req : ∀ r ∈ w.reqs, r.served < w.built
  entries : ∀ k k' e e', w.cache.entries k = some e → w.cache.entries k' = some e' → e.value = e'.value → k = k'
  mixed : ∀ r ∈ w.reqs, ∀ k e, w.cache.entries k = some e → e.value = r.served → r.key = k
  reqs : ∀ r ∈ w.reqs, ∀ r' ∈ w.reqs, r.served = r'.served → r.key = r'.key

/-- No entry is new, or is another. -/
def Fewer (a b : IdleCache.World K Nat) : Prop := ∀ k e, b.entries k = some e → a.entries k = some e

theorem fewer_step (idle : Nat) (a : IdleCache.World K Nat) (o : IdleCache.Op K Nat)
    (ho : (∃ j, o = .cloneHandle j) ∨ (∃ j, o = .beginDrop j) ∨ (∃ j, o = .finishDrop j) ∨ (∃ j, o = .expire j) ∨ (∃ j, o = .wake j) ∨ ∃ d, o = .tick d) :
    Fewer a (a.step idle o).1 := by
  rcases ho with ⟨j, rfl⟩ | ⟨j, rfl⟩ | ⟨j, rfl⟩ | ⟨j, rfl⟩ | ⟨j, rfl⟩ | ⟨d, rfl⟩
  · simp only [IdleCache.World.step, IdleCache.World.cloneHandle]
    repeat' split
    all_goals exact fun _ _ h => h
  · simp only [IdleCache.World.step, IdleCache.World.beginDrop]
    repeat' split
    all_goals exact fun _ _ h => h
  · simp only [IdleCache.World.step, IdleCache.World.finishDrop]
    repeat' split
    all_goals exact fun _ _ h => h
  · simp only [IdleCache.World.step, IdleCache.World.expire]
    repeat' split
    all_goals exact fun _ _ h => h
  · simp only [IdleCache.World.step, IdleCache.World.wake]
    repeat' split
    all_goals first
      | exact fun _ _ h => h
      | (intro k e h
         simp only [IdleCache.setEntry] at h
         split at h
         · cases h
         · exact h)
  · exact fun _ _ h => h

theorem fewer_run (idle : Nat) : ∀ (os : List (IdleCache.Op K Nat)) (a : IdleCache.World K Nat),
    (∀ o ∈ os, (∃ j, o = .cloneHandle j) ∨ (∃ j, o = .beginDrop j) ∨ (∃ j, o = .finishDrop j) ∨ (∃ j, o = .expire j) ∨ (∃ j, o = .wake j) ∨ ∃ d, o = .tick d) →
    Fewer a (IdleCache.run idle a os).1
  | [], _, _ => fun _ _ h => h
  | o :: os, a, h => fun k e hk =>
    fewer_step idle a o (h o (List.mem_cons_self ..)) k e (fewer_run idle os _ (fun x hx => h x (List.mem_cons_of_mem _ hx)) k e hk)

theorem Named.other {w w' : World K} (n : Named w) (hf : Fewer w.cache w'.cache) (hb : w'.built = w.built)
    (hr : ∀ r ∈ w'.reqs, ∃ r0 ∈ w.reqs, r.key = r0.key ∧ r.served = r0.served) : Named w' := by
  refine ⟨?_, ?_, ?_, ?_, ?_⟩
  · intro k e h; rw [hb]; exact n.entry k e (hf k e h)
  · intro r h
    obtain ⟨r0, h0, _, hs⟩ := hr r h
    rw [hb, hs]; exact n.req r0 h0
  · intro k k' e e' h h'; exact n.entries k k' e e' (hf k e h) (hf k' e' h')
  · intro r h k e he hv
    obtain ⟨r0, h0, hk, hs⟩ := hr r h
    rw [hk]; exact n.mixed r0 h0 k e (hf k e he) (hv.trans hs)
  · intro r h r' h' hv
    obtain ⟨r0, h0, hk, hs⟩ := hr r h
    obtain ⟨r1, h1, hk', hs'⟩ := hr r' h'
    rw [hk, hk']; exact n.reqs r0 h0 r1 h1 (by rw [← hs, ← hs', hv])

theorem Named.step {idle : Nat} {w : World K} (n : Named w) (o : Op K) : Named (w.step idle o) := by
  have other : ∀ op : Op K, (w.step idle op).built = w.built →
      (w.step idle op).reqs = w.reqs.mapIdx (fun i r => { r with stage := r.stage.next w.cache.handles.length i op }) →
      (∀ x ∈ w.plan op, (∃ j, x = .cloneHandle j) ∨ (∃ j, x = .beginDrop j) ∨ (∃ j, x = .finishDrop j) ∨ (∃ j, x = .expire j) ∨ (∃ j, x = .wake j) ∨ ∃ d, x = .tick d) →
      Named (w.step idle op) := by
    intro op hb hr hp
    refine n.other (fewer_run idle _ _ hp) hb ?_
    intro r hm
    rw [hr] at hm
    obtain ⟨i, hi, rfl⟩ := List.mem_mapIdx.1 hm
    exact ⟨w.reqs[i], List.getElem_mem _, rfl, rfl⟩
  cases o with
  | request k =>
    simp only [World.step, World.plan, IdleCache.run, IdleCache.World.step]
    cases he : w.cache.entries k with
    | some e =>
      have hc : (w.cache.insertIfVacant k w.built) = w.cache.cached k e := by simp only [IdleCache.World.insertIfVacant, he]
      rw [hc]
      have hen : (w.cache.cached k e).1.entries = w.cache.entries := by
        unfold IdleCache.World.cached
        repeat' split
        all_goals rfl
      have ho : (w.cache.cached k e).2 = .found e.value ∨ (w.cache.cached k e).2 = .panic := by
        unfold IdleCache.World.cached
        repeat' split
        all_goals simp
      have ht : ∀ r ∈ (match given (w.cache.cached k e).2 with
          | some v => w.reqs ++ [({ key := k, served := v, stage := .waiting w.cache.handles.length } : Req K)]
          | none => w.reqs), r ∈ w.reqs ∨ (r.key = k ∧ r.served = e.value) := by
        rcases ho with ho | ho <;> rw [ho]
        · intro r hm
          rcases List.mem_append.1 hm with hm | hm
          · exact .inl hm
          · rw [List.mem_singleton.1 hm]; exact .inr ⟨rfl, rfl⟩
        · exact fun r hm => .inl hm
      have hb : (if (w.cache.cached k e).2 = .created w.built then w.built + 1 else w.built) = w.built := by
        rcases ho with ho | ho <;> rw [ho] <;> rfl
      refine ⟨?_, ?_, ?_, ?_, ?_⟩
      · intro k' e' h; rw [hb]; exact n.entry k' e' (by rw [← hen]; exact h)
      · intro r h
        rw [hb]
        rcases ht r h with h0 | ⟨_, h0⟩
        · exact n.req r h0
        · rw [h0]; exact n.entry k e he
      · intro k1 k2 e1 e2 h1 h2; exact n.entries k1 k2 e1 e2 (by rw [← hen]; exact h1) (by rw [← hen]; exact h2)
      · intro r h k' e' h' hv
        have h' : w.cache.entries k' = some e' := by rw [← hen]; exact h'
        rcases ht r h with h0 | ⟨h1, h0⟩
        · exact n.mixed r h0 k' e' h' hv
        · rw [h1]; exact n.entries k k' e e' he h' (by rw [← h0, hv])
      · intro r h r' h' hv
        rcases ht r h with h0 | ⟨h1, h0⟩ <;> rcases ht r' h' with h0' | ⟨h1', h0'⟩
        · exact n.reqs r h0 r' h0' hv
        · rw [h1']; exact n.mixed r h0 k e he (by rw [hv, h0'])
        · rw [h1]; exact (n.mixed r' h0' k e he (by rw [← hv, h0])).symm
        · rw [h1, h1']
    | none =>
      have hc : (w.cache.insertIfVacant k w.built).2 = .created w.built := by simp only [IdleCache.World.insertIfVacant, he]
      have hen : (w.cache.insertIfVacant k w.built).1.entries =
          IdleCache.setEntry w.cache.entries k (some { value := w.built, task := some w.cache.tasks.length }) := by
        simp only [IdleCache.World.insertIfVacant, he]
      have hE : ∀ k' e', (w.cache.insertIfVacant k w.built).1.entries k' = some e' → (k' = k ∧ e'.value = w.built) ∨ w.cache.entries k' = some e' := by
        intro k' e' h
        rw [hen] at h
        simp only [IdleCache.setEntry] at h
        split at h
        · cases h; exact .inl ⟨by assumption, rfl⟩
        · exact .inr h
      rw [hc]
      simp only [given, if_true]
      refine ⟨?_, ?_, ?_, ?_, ?_⟩
      · intro k' e' h
        rcases hE k' e' h with ⟨_, h0⟩ | h0
        · simp only [h0]; omega
        · have := n.entry k' e' h0; simp only; omega
      · intro r h
        rcases List.mem_append.1 h with h0 | h0
        · have := n.req r h0; simp only; omega
        · rw [List.mem_singleton.1 h0]; simp only; omega
      · intro k1 k2 e1 e2 h1 h2 hv
        rcases hE k1 e1 h1 with ⟨ha, hb⟩ | ha <;> rcases hE k2 e2 h2 with ⟨hc, hd⟩ | hc
        · rw [ha, hc]
        · have := n.entry k2 e2 hc; omega
        · have := n.entry k1 e1 ha; omega
        · exact n.entries k1 k2 e1 e2 ha hc hv
      · intro r h k' e' h' hv
        rcases List.mem_append.1 h with h0 | h0 <;> rcases hE k' e' h' with ⟨ha, hb⟩ | ha
        · have := n.req r h0; omega
        · exact n.mixed r h0 k' e' ha hv
        · rw [List.mem_singleton.1 h0, ha]
        · rw [List.mem_singleton.1 h0] at hv
          have := n.entry k' e' ha
          simp only at hv; omega
      · intro r h r' h' hv
        rcases List.mem_append.1 h with h0 | h0 <;> rcases List.mem_append.1 h' with h0' | h0'
        · exact n.reqs r h0 r' h0' hv
        · have := n.req r h0
          rw [List.mem_singleton.1 h0'] at hv
          simp only at hv; omega
        · have := n.req r' h0'
          rw [List.mem_singleton.1 h0] at hv
          simp only at hv; omega
        · rw [List.mem_singleton.1 h0, List.mem_singleton.1 h0']
  | ready i ok =>
    refine other _ rfl rfl ?_
    simp only [World.plan]
    repeat' split
    all_goals simp
  | respond i ok =>
    refine other _ rfl rfl ?_
    simp only [World.plan]
    repeat' split
    all_goals simp
  | finish i =>
    refine other _ rfl rfl ?_
    simp only [World.plan]
    repeat' split
    all_goals simp
  | release j => exact other _ rfl rfl (by simp [World.plan])
  | expire j => exact other _ rfl rfl (by simp [World.plan])
  | wake j => exact other _ rfl rfl (by simp [World.plan])
  | tick d => exact other _ rfl rfl (by simp [World.plan])

theorem named_after (idle : Nat) (ops : List (Op K)) : Named (after idle ops) := by
  induction ops using snoc_induction with
  | nil => exact ⟨(fun _ _ h => nomatch h), (fun _ h => nomatch h), (fun _ _ _ _ h => nomatch h), (fun _ h => nomatch h), (fun _ h => nomatch h)⟩
  | snoc ops o ih => rw [after_snoc]; exact ih.step o

/-- **No service is given to requests of different keys.** -/
theorem C114_no_service_is_of_two_keys (idle : Nat) (ops : List (Op K)) (i i' : Nat) (hi : i < (keys ops).length) (hi' : i' < (keys ops).length)
    (h : served idle i ops = served idle i' ops) : (keys ops)[i]? = (keys ops)[i']? := by
  have I := inv_after idle ops
  have N := named_after idle ops
  rw [← I.keys] at hi hi' ⊢
  rw [List.length_map] at hi hi'
  simp only [served, List.getElem?_eq_getElem hi, List.getElem?_eq_getElem hi', Option.map_some, Option.some.injEq] at h
  rw [List.getElem?_map, List.getElem?_map, List.getElem?_eq_getElem hi, List.getElem?_eq_getElem hi']
  exact congrArg some (N.reqs _ (List.getElem_mem _) _ (List.getElem_mem _) h)

/-- A limit: a service may be dropped right after a request that used it, if the request came and went between the expiry of the
service's timer and the moment at which its eviction task got the cache's lock. -/
theorem C114_limit_dropped_right_after_use : ∃ ops : List (Op Nat), ((after 5 ops).cache.wake 5 0).2 = .evicted ∧
    (keys ops)[1]? = some 7 ∧ status 1 ops = .over 5 ∧ clock ops = 5 :=
  ⟨[.request 7, .finish 0, .release 0, .wake 0, .tick 5, .expire 0, .request 7, .finish 1, .release 1], by decide, by decide, by decide, by decide⟩

/-! ### Examples -/

/-- Idle time 10. A request comes and is answered; its response is read for long; another request comes, and is given the same
service; both are dropped. -/
def exOps : List (Op Nat) :=
  [.request 7, .ready 0 true, .respond 0 true, .release 0, .wake 0, .tick 25, .wake 0, .request 7, .ready 1 false, .release 2, .wake 0]

example : status 0 exOps = .reading ∧ status 1 exOps = .over 25 ∧ served 10 0 exOps = some 0 ∧ served 10 1 exOps = some 0 ∧
    clock exOps = 25 := by decide +kernel

/-- Once the body is dropped, the service is dropped after the idle time, and the next request is given a new one. -/
def exMore : List (Op Nat) := exOps ++ [.finish 0, .release 1, .wake 0, .tick 10]

example : ((after 10 exMore).cache.wake 10 0).2 = .evicted ∧ served 10 2 (exMore ++ [.wake 0, .request 7]) = some 1 ∧
    served 10 2 (exMore ++ [.request 7]) = some 0 ∧ status 0 exMore = .over 25 := by decide +kernel

/-- The hypotheses of `C114_idle_services_are_dropped` are met. -/
example : (after 10 (exOps ++ [.finish 0, .release 1])).cache.entries 7 = some { value := 0, task := some 0 } ∧
    (∀ h ∈ (after 10 (exOps ++ [.finish 0, .release 1])).cache.handles, h.key = 7 → h.life = .released) := by decide +kernel

end Verif.Retain
