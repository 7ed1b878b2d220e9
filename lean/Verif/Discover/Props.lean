import Verif.Common.List
import Verif.Discover.Model
/-!
# C105: discovery is shared by all that connect to the same destination
-/
namespace Verif.Discover
open Verif.IdleCache (Held Entry NoPermanent)

variable {K R E : Type} [DecidableEq K]

/-! ## Specification -/

/-- The world after a history, from nothing. -/
def after (idle : Nat) (ops : List (Op K R E)) : World K R E := World.run idle init ops

/-- A client has a handle: to wait with, or in its service. -/
def Client.has (cl : Client K R E) (j : Nat) : Prop :=
  j = cl.cached ∨ j = cl.oneshot ∨ ∃ r, cl.outcome = .service j r

/-- A client uses a lookup: one of its handles on it has not been dropped. -/
def World.uses (w : World K R E) (cl : Client K R E) (i : Nat) : Prop :=
  ∃ j h, cl.has j ∧ w.cache.handles[j]? = some h ∧ h.inUse ∧ h.value = i

/-- Somebody uses the discovery of a key: a client, a service, or a clone of it. -/
def World.inUse (w : World K R E) (k : K) : Prop := ∃ h ∈ w.cache.handles, h.key = k ∧ h.inUse

/-- The step asks for the key. -/
def Asks (k : K) : Op K R E → Prop
  | .connect k' => k' = k
  | _ => False

/-- Time that passes in a history. -/
def elapsed : List (Op K R E) → Nat
  | [] => 0
  | .tick d :: r => d + elapsed r
  | _ :: r => elapsed r

/-! ## The cache -/

/-- What a step does to the cache. -/
def World.trace (w : World K R E) : Op K R E → List (IdleCache.Op K Nat)
  | .connect k => [.insertIfVacant k w.lookups.length, .cloneHandle w.cache.handles.length]
  | .answer _ _ => []
  | .poll c =>
    match (w.poll c).2, w.clients[c]? with
    | .service _, some cl => [.cloneHandle cl.cached]
    | _, _ => []
  | .clone j => [.cloneHandle j]
  | .beginDrop j => [.beginDrop j]
  | .finishDrop j => [.finishDrop j]
  | .tick d => [.tick d]
  | .expire id => [.expire id]
  | .wake id => [.wake id]

/-- The three ways in which a poll can go. -/
theorem poll_cases (w : World K R E) (c : Nat) :
    (w.poll c).1 = w ∧ (∀ r, (w.poll c).2 ≠ .service r) ∨
    (∃ cl h e l, w.clients[c]? = some cl ∧ w.cache.handles[cl.cached]? = some h ∧ w.lookups[h.value]? = some l ∧
      l.answer = some (.error e) ∧ w.poll c =
        ({ w with clients := w.clients.set c { cl with outcome := .failed e } }, .failed e)) ∨
    (∃ cl h r l, w.clients[c]? = some cl ∧ w.cache.handles[cl.cached]? = some h ∧ h.life = .live ∧
      w.lookups[h.value]? = some l ∧ l.answer = some (.ok r) ∧ w.poll c =
        ({ w with
            cache := (w.cache.cloneHandle cl.cached).1
            clients := w.clients.set c { cl with outcome := .service w.cache.handles.length r } }, .service r)) := by
  unfold World.poll
  cases hc : w.clients[c]? with
  | none => exact .inl ⟨rfl, by simp⟩
  | some cl =>
    dsimp only
    split
    · rename_i h ho hh
      split
      · rename_i hl
        cases hL : w.lookups[h.value]? with
        | none => exact .inl ⟨rfl, by simp⟩
        | some l =>
          cases ha : l.answer with
          | none => simp only [Option.bind_some, ha]; exact .inl ⟨trivial, by simp⟩
          | some a =>
            cases a with
            | error e =>
              simp only [Option.bind_some, ha]
              exact .inr (.inl ⟨cl, h, e, l, by simp, hh, hL, ha, rfl⟩)
            | ok r =>
              simp only [Option.bind_some, ha]
              exact .inr (.inr ⟨cl, h, r, l, by simp, hh, hl, hL, ha, rfl⟩)
      · exact .inl ⟨rfl, by simp⟩
    · exact .inl ⟨rfl, by simp⟩

theorem trace_cache (idle : Nat) (w : World K R E) (op : Op K R E) :
    (w.step idle op).1.cache = (IdleCache.run idle w.cache (w.trace op)).1 := by
  cases op with
  | poll c =>
    rcases poll_cases w c with ⟨h, n⟩ | ⟨cl, h, e, l, hc, _, _, _, hp⟩ | ⟨cl, h, r, l, hc, _, _, _, _, hp⟩
    · simp only [World.step, World.trace]
      rw [h]
      split
      · rename_i hs _; exact absurd hs (n _)
      · rfl
    · simp only [World.step, World.trace, hp]; rfl
    · simp only [World.step, World.trace, hp, hc]; rfl
  | _ => rfl

theorem trace_permanent (w : World K R E) (op : Op K R E) (k : K) : NoPermanent k (w.trace op) := by
  intro v hv
  cases op with
  | poll c =>
    simp only [World.trace] at hv
    split at hv <;> simp at hv
  | _ => simp [World.trace] at hv

/-- The cache has a history of its own. -/
def FromCache (idle : Nat) (w : World K R E) : Prop :=
  ∃ cops, (∀ k, NoPermanent k cops) ∧ w.cache = IdleCache.after idle cops

theorem fromCache_step {idle : Nat} {w : World K R E} (h : FromCache idle w) (op : Op K R E) :
    FromCache idle (w.step idle op).1 := by
  obtain ⟨cops, n, e⟩ := h
  refine ⟨cops ++ w.trace op, ?_, ?_⟩
  · intro k v hv
    rcases List.mem_append.mp hv with h | h
    · exact n k v h
    · exact trace_permanent w op k v h
  · rw [trace_cache, e]
    unfold IdleCache.after
    rw [IdleCache.run_append]

/-! ## Keys and lookups agree -/

/-- Everything in the cache is in a relation. -/
structure Agree (P : K → Nat → Prop) (c : IdleCache.World K Nat) : Prop where
  entries : ∀ k e, c.entries k = some e → P k e.value
  handles : ∀ h ∈ c.handles, P h.key h.value

theorem Agree.mono {P Q : K → Nat → Prop} {c : IdleCache.World K Nat} (a : Agree P c) (h : ∀ k v, P k v → Q k v) :
    Agree Q c := ⟨fun k e he => h _ _ (a.entries k e he), fun x hx => h _ _ (a.handles x hx)⟩

theorem Agree.cached {P : K → Nat → Prop} {c : IdleCache.World K Nat} (a : Agree P c) {k : K} {e : Entry Nat}
    (h : P k e.value) : Agree P (c.cached k e).1 := by
  unfold IdleCache.World.cached
  split
  · split
    · refine ⟨a.entries, fun x hx => ?_⟩
      rcases List.mem_append.mp hx with hx | hx
      · exact a.handles x hx
      · simp at hx; subst hx; exact h
    · exact a
  · refine ⟨a.entries, fun x hx => ?_⟩
    rcases List.mem_append.mp hx with hx | hx
    · exact a.handles x hx
    · simp at hx; subst hx; exact h

theorem Agree.insert {P : K → Nat → Prop} {c : IdleCache.World K Nat} (a : Agree P c) {k : K} {v : Nat}
    (h : c.entries k = none → P k v) : Agree P (c.insertIfVacant k v).1 := by
  unfold IdleCache.World.insertIfVacant
  split
  · rename_i hn
    refine ⟨fun k' e he => ?_, fun x hx => ?_⟩
    · simp only [IdleCache.setEntry] at he
      split at he
      · rename_i hk; subst hk; cases he; exact h hn
      · exact a.entries k' e he
    · rcases List.mem_append.mp hx with hx | hx
      · exact a.handles x hx
      · simp at hx; subst hx; exact h hn
  · rename_i e he
    exact a.cached (a.entries k e he)

theorem Agree.clone {P : K → Nat → Prop} {c : IdleCache.World K Nat} (a : Agree P c) (j : Nat) :
    Agree P (c.cloneHandle j).1 := by
  unfold IdleCache.World.cloneHandle
  split
  · exact a
  · rename_i h hh
    split
    · refine ⟨a.entries, fun x hx => ?_⟩
      rcases List.mem_append.mp hx with hx | hx
      · exact a.handles x hx
      · simp at hx; subst hx; exact a.handles x (List.mem_of_getElem? hh)
    · exact a

theorem Agree.drop {P : K → Nat → Prop} {c : IdleCache.World K Nat} (a : Agree P c) (j : Nat) :
    Agree P (c.beginDrop j).1 ∧ Agree P (c.finishDrop j).1 := by
  unfold IdleCache.World.beginDrop IdleCache.World.finishDrop
  constructor
  · split
    · exact a
    · rename_i h hh
      split
      · refine ⟨a.entries, fun x hx => ?_⟩
        rcases List.mem_or_eq_of_mem_set hx with hx | hx
        · exact a.handles x hx
        · subst hx; exact a.handles h (List.mem_of_getElem? hh)
      · exact a
  · split
    · exact a
    · rename_i h hh
      split
      · refine ⟨a.entries, fun x hx => ?_⟩
        rcases List.mem_or_eq_of_mem_set hx with hx | hx
        · exact a.handles x hx
        · subst hx; exact a.handles h (List.mem_of_getElem? hh)
      · exact a

theorem Agree.wake {P : K → Nat → Prop} {c : IdleCache.World K Nat} (a : Agree P c) (idle id : Nat) :
    Agree P (c.wake idle id).1 := by
  have q : ∀ ts, Agree P { c with tasks := ts } := fun ts => ⟨a.entries, a.handles⟩
  have z : ∀ k ts, Agree P { c with tasks := ts, entries := IdleCache.setEntry c.entries k none } := by
    intro k ts
    refine ⟨fun k' e he => ?_, a.handles⟩
    simp only [IdleCache.setEntry] at he
    split at he
    · cases he
    · exact a.entries k' e he
  unfold IdleCache.World.wake
  repeat' split
  all_goals first
    | exact a
    | exact q _
    | exact z _ _

theorem Agree.expire {P : K → Nat → Prop} {c : IdleCache.World K Nat} (a : Agree P c) (id : Nat) : Agree P (c.expire id).1 := by
  unfold IdleCache.World.expire
  repeat' split
  all_goals exact ⟨a.entries, a.handles⟩

/-- A lookup was made for the key. -/
def For (w : World K R E) (k : K) (i : Nat) : Prop := ∃ l, w.lookups[i]? = some l ∧ l.key = k

/-- Handles keep their number, their key and their value; a dropped one does not come back. -/
def Stays (c c' : IdleCache.World K Nat) : Prop :=
  ∀ (j : Nat) (h : Held K Nat), c.handles[j]? = some h → ∃ h' : Held K Nat, c'.handles[j]? = some h' ∧ h'.key = h.key ∧ h'.value = h.value ∧
    (h'.inUse → h.inUse)

theorem Stays.refl (c : IdleCache.World K Nat) : Stays c c := fun _ h e => ⟨h, e, rfl, rfl, id⟩

theorem Stays.trans {a b c : IdleCache.World K Nat} (x : Stays a b) (y : Stays b c) : Stays a c := by
  intro j h e
  obtain ⟨h', e', k', v', i'⟩ := x j h e
  obtain ⟨h'', e'', k'', v'', i''⟩ := y j h' e'
  exact ⟨h'', e'', k''.trans k', v''.trans v', fun i => i' (i'' i)⟩

theorem stays_of_append {c c' : IdleCache.World K Nat} {hs : List (Held K Nat)} (e : c'.handles = c.handles ++ hs) :
    Stays c c' := by
  intro j h he
  exact ⟨h, by rw [e, List.getElem?_append_left (IdleCache.lt_of_some he)]; exact he, rfl, rfl, id⟩

theorem stays_cached (c : IdleCache.World K Nat) (k : K) (e : Entry Nat) : Stays c (c.cached k e).1 := by
  unfold IdleCache.World.cached
  split
  · split
    · exact stays_of_append rfl
    · exact Stays.refl c
  · exact stays_of_append rfl

theorem stays_insert (c : IdleCache.World K Nat) (k : K) (v : Nat) : Stays c (c.insertIfVacant k v).1 := by
  unfold IdleCache.World.insertIfVacant
  split
  · exact stays_of_append rfl
  · exact stays_cached c k _

theorem stays_clone (c : IdleCache.World K Nat) (j : Nat) : Stays c (c.cloneHandle j).1 := by
  unfold IdleCache.World.cloneHandle
  split
  · exact Stays.refl c
  · split
    · exact stays_of_append rfl
    · exact Stays.refl c

theorem stays_of_set {c c' : IdleCache.World K Nat} {j : Nat} {h x : Held K Nat} (hj : c.handles[j]? = some h)
    (e : c'.handles = c.handles.set j x) (hk : x.key = h.key) (hv : x.value = h.value) (hu : x.inUse → h.inUse) :
    Stays c c' := by
  intro i y hy
  by_cases q : i = j
  · subst q
    rw [hj] at hy; cases hy
    exact ⟨x, by rw [e, List.getElem?_set_self (IdleCache.lt_of_some hj)], hk, hv, hu⟩
  · exact ⟨y, by rw [e, List.getElem?_set_ne (Ne.symm q)]; exact hy, rfl, rfl, id⟩

theorem stays_drop (c : IdleCache.World K Nat) (j : Nat) : Stays c (c.beginDrop j).1 ∧ Stays c (c.finishDrop j).1 := by
  unfold IdleCache.World.beginDrop IdleCache.World.finishDrop
  constructor
  · split
    · exact Stays.refl c
    · rename_i h hh
      split
      · rename_i l
        exact stays_of_set hh rfl rfl rfl (fun _ => by unfold Held.inUse; rw [l]; simp)
      · exact Stays.refl c
  · split
    · exact Stays.refl c
    · rename_i h hh
      split
      · exact stays_of_set hh rfl rfl rfl (fun i => by simp [Held.inUse] at i)
      · exact Stays.refl c

theorem stays_wake (c : IdleCache.World K Nat) (idle id : Nat) : Stays c (c.wake idle id).1 := by
  have q : (c.wake idle id).1.handles = c.handles := by
    unfold IdleCache.World.wake
    repeat' split
    all_goals rfl
  exact stays_of_append (hs := []) (by rw [q, List.append_nil])

theorem stays_expire (c : IdleCache.World K Nat) (id : Nat) : Stays c (c.expire id).1 := by
  have q : (c.expire id).1.handles = c.handles := by
    unfold IdleCache.World.expire
    repeat' split
    all_goals rfl
  exact stays_of_append (hs := []) (by rw [q, List.append_nil])

/-! ## The invariant -/

/-- A lookup has answered. -/
def Answered (w : World K R E) (i : Nat) (a : Except E R) : Prop := ∃ l, w.lookups[i]? = some l ∧ l.answer = some a

/-- What a client was told, given the number of its lookup. -/
def Told (w : World K R E) (cl : Client K R E) (i : Nat) : Prop :=
  match cl.outcome with
  | .waiting => True
  | .failed e => Answered w i (.error e)
  | .service s r => Answered w i (.ok r) ∧
      ∃ h : Held K Nat, w.cache.handles[s]? = some h ∧ h.key = cl.key ∧ h.value = i

/-- A client has two handles on its lookup, and was told the lookup's answer. -/
def Fine (w : World K R E) (cl : Client K R E) : Prop :=
  ∃ h o : Held K Nat, w.cache.handles[cl.cached]? = some h ∧ h.key = cl.key ∧
    w.cache.handles[cl.oneshot]? = some o ∧ o.key = cl.key ∧ o.value = h.value ∧ Told w cl h.value

structure Ok (idle : Nat) (w : World K R E) : Prop where
  from_cache : FromCache idle w
  agree : Agree (For w) w.cache
  clients : ∀ cl ∈ w.clients, Fine w cl

/-- Lookups stay. -/
def Grows (w w' : World K R E) : Prop :=
  ∀ (i : Nat) (l : Lookup K R E), w.lookups[i]? = some l → ∃ l' : Lookup K R E, w'.lookups[i]? = some l' ∧ l'.key = l.key ∧
    ∀ a, l.answer = some a → l'.answer = some a

theorem Grows.same {w w' : World K R E} (e : w'.lookups = w.lookups) : Grows w w' :=
  fun _ l h => ⟨l, by rw [e]; exact h, rfl, fun _ h => h⟩

theorem For.grows {w w' : World K R E} (g : Grows w w') {k : K} {i : Nat} (h : For w k i) : For w' k i := by
  obtain ⟨l, hl, hk⟩ := h
  obtain ⟨l', hl', hk', _⟩ := g i l hl
  exact ⟨l', hl', hk'.trans hk⟩

theorem Answered.grows {w w' : World K R E} (g : Grows w w') {i : Nat} {a : Except E R} (h : Answered w i a) :
    Answered w' i a := by
  obtain ⟨l, hl, ha⟩ := h
  obtain ⟨l', hl', _, ha'⟩ := g i l hl
  exact ⟨l', hl', ha' a ha⟩

theorem Fine.grows {w w' : World K R E} (g : Grows w w') (s : Stays w.cache w'.cache) {cl : Client K R E} (f : Fine w cl) :
    Fine w' cl := by
  obtain ⟨h, o, h1, h2, h3, h4, h5, h6⟩ := f
  obtain ⟨h', h1', h2', h3', _⟩ := s _ _ h1
  obtain ⟨o', o1', o2', o3', _⟩ := s _ _ h3
  refine ⟨h', o', h1', h2'.trans h2, o1', o2'.trans h4, by rw [o3', h5, h3'], ?_⟩
  rw [h3']
  unfold Told at h6 ⊢
  cases e : cl.outcome with
  | waiting => trivial
  | failed e' => rw [e] at h6; exact Answered.grows g h6
  | service j r =>
    rw [e] at h6
    obtain ⟨a, x, x1, x2, x3⟩ := h6
    obtain ⟨x', y1, y2, y3, _⟩ := s _ _ x1
    exact ⟨a.grows g, x', y1, y2.trans x2, y3.trans x3⟩

theorem FromCache.inv {idle : Nat} {w : World K R E} (h : FromCache idle w) : IdleCache.Inv idle w.cache := by
  obtain ⟨cops, _, e⟩ := h
  rw [e]
  exact IdleCache.inv_after idle cops

/-- What connecting does: two handles more, on the entry that there is or on a new one. -/
theorem connect_spec {idle : Nat} {w : World K R E} (o : Ok idle w) (k : K) :
    ∃ h : Held K Nat, h.key = k ∧ h.life = .live ∧
      (w.connect k).cache.handles = w.cache.handles ++ [h, h] ∧
      ((w.cache.entries k = none ∧ h.value = w.lookups.length ∧ (w.connect k).lookups = w.lookups ++ [⟨k, none⟩]) ∨
       (∃ e, w.cache.entries k = some e ∧ h.value = e.value ∧ (w.connect k).lookups = w.lookups)) := by
  have I := o.from_cache.inv
  have two : ∀ (c : IdleCache.World K Nat) (hs : List (Held K Nat)) (h : Held K Nat), h.life = .live → c.handles = hs ++ [h] →
      (c.cloneHandle hs.length).1.handles = hs ++ [h, h] := by
    intro c hs h l e
    unfold IdleCache.World.cloneHandle
    have : c.handles[hs.length]? = some h := by rw [e]; simp
    rw [this]
    simp [l, e]
  cases he : w.cache.entries k with
  | none =>
    have q1 : (w.cache.insertIfVacant k w.lookups.length).1.handles =
        w.cache.handles ++ [⟨k, w.lookups.length, some w.cache.tasks.length, .live, 0⟩] := by
      unfold IdleCache.World.insertIfVacant
      rw [he]
    have q2 : (w.cache.insertIfVacant k w.lookups.length).2 = .created w.lookups.length := by
      unfold IdleCache.World.insertIfVacant
      rw [he]
    refine ⟨⟨k, w.lookups.length, some w.cache.tasks.length, .live, 0⟩, rfl, rfl, two _ _ _ rfl q1, .inl ⟨rfl, rfl, ?_⟩⟩
    unfold World.connect
    dsimp only
    rw [q2]
  | some e =>
    have q : w.cache.insertIfVacant k w.lookups.length = w.cache.cached k e := by
      unfold IdleCache.World.insertIfVacant
      rw [he]
    have f := (I.cached he).2
    have hh : (w.cache.cached k e).1.handles =
        w.cache.handles ++ [⟨k, e.value, e.task, .live, 0⟩] := by
      unfold IdleCache.World.cached at f ⊢
      cases ht : e.task with
      | none => rfl
      | some id =>
        rw [ht] at f
        dsimp only at f ⊢
        split at f
        · rename_i g; rw [if_pos g]
        · cases f
    refine ⟨⟨k, e.value, e.task, .live, 0⟩, rfl, rfl, ?_, .inr ⟨e, rfl, rfl, ?_⟩⟩
    · unfold World.connect
      rw [q]
      exact two _ _ _ rfl hh
    · unfold World.connect
      dsimp only
      rw [q, f]

theorem connect_grows (w : World K R E) (k : K) : Grows w (w.connect k) := by
  intro i l h
  unfold World.connect
  dsimp only
  split
  · exact ⟨l, by rw [List.getElem?_append_left (IdleCache.lt_of_some h)]; exact h, rfl, fun _ h => h⟩
  · exact ⟨l, h, rfl, fun _ h => h⟩

theorem answer_grows (w : World K R E) (i : Nat) (a : Except E R) :
    Grows w { w with lookups := w.lookups.modify i (·.resolve a) } := by
  intro j l h
  dsimp only
  rw [List.getElem?_modify, h]
  by_cases q : i = j
  · refine ⟨l.resolve a, by simp [q], ?_, ?_⟩
    · unfold Lookup.resolve; split <;> rfl
    · intro b hb; unfold Lookup.resolve; rw [hb]; exact hb
  · exact ⟨l, by simp [q], rfl, fun _ h => h⟩

theorem ok_init (idle : Nat) : Ok idle (init : World K R E) :=
  ⟨⟨[], fun _ _ h => by simp at h, rfl⟩, ⟨fun _ _ h => by simp [init, IdleCache.init] at h,
    fun _ h => by simp [init, IdleCache.init] at h⟩, fun _ h => by simp [init] at h⟩

theorem ok_step {idle : Nat} {w : World K R E} (o : Ok idle w) (op : Op K R E) : Ok idle (w.step idle op).1 := by
  have fc := fromCache_step o.from_cache op
  have keep : ∀ {w' : World K R E}, w'.lookups = w.lookups → w'.clients = w.clients → Stays w.cache w'.cache →
      Agree (For w) w'.cache → FromCache idle w' → Ok idle w' := by
    intro w' hl hc hs ha hf
    have g : Grows w w' := Grows.same hl
    exact ⟨hf, ha.mono fun _ _ h => h.grows g, fun cl h => (o.clients cl (by rw [← hc]; exact h)).grows g hs⟩
  cases op with
  | connect k =>
    have g := connect_grows w k
    have st : Stays w.cache (w.connect k).cache := by
      obtain ⟨h, _, _, e, _⟩ := connect_spec o k
      exact stays_of_append e
    refine ⟨fc, ?_, ?_⟩
    · show Agree (For (w.connect k)) (w.connect k).cache
      have : Agree (For (w.connect k)) (w.cache.insertIfVacant k w.lookups.length).1 := by
        refine (o.agree.mono fun _ _ h => h.grows g).insert ?_
        intro hn
        obtain ⟨h, _, _, _, e⟩ := connect_spec o k
        rcases e with ⟨_, _, e⟩ | ⟨x, hx, _⟩
        · exact ⟨⟨k, none⟩, by rw [e]; simp, rfl⟩
        · rw [hn] at hx; cases hx
      exact this.clone _
    · intro cl hcl
      have : (w.step idle (.connect k)).1.clients = w.clients ++
          [⟨k, w.cache.handles.length, w.cache.handles.length + 1, .waiting⟩] := rfl
      rw [this] at hcl
      rcases List.mem_append.mp hcl with h | h
      · exact (o.clients cl h).grows g st
      · simp at h; subst h
        obtain ⟨h, hk, _, e, _⟩ := connect_spec o k
        refine ⟨h, h, ?_, hk, ?_, hk, rfl, trivial⟩
        · show (w.connect k).cache.handles[w.cache.handles.length]? = some h
          rw [e]; simp
        · show (w.connect k).cache.handles[w.cache.handles.length + 1]? = some h
          rw [e]; simp
  | answer i a =>
    have g := answer_grows w i a
    exact ⟨fc, o.agree.mono fun _ _ h => h.grows g, fun cl h => (o.clients cl h).grows g (Stays.refl _)⟩
  | poll c =>
    rcases poll_cases w c with ⟨h, _⟩ | ⟨cl, h, e, l, hc, hh, hl, ha, hp⟩ | ⟨cl, h, r, l, hc, hh, hv, hl, ha, hp⟩
    · show Ok idle (w.poll c).1
      rw [h]; exact o
    · show Ok idle (w.poll c).1
      have fc' : FromCache idle (w.poll c).1 := fc
      rw [hp] at fc' ⊢
      refine ⟨fc', o.agree, fun x hx => ?_⟩
      rcases List.mem_or_eq_of_mem_set hx with hx | hx
      · exact (o.clients x hx).grows (Grows.same rfl) (Stays.refl _)
      · subst hx
        obtain ⟨h', o', h1, h2, h3, h4, h5, _⟩ := o.clients cl (List.mem_of_getElem? hc)
        rw [hh] at h1; cases h1
        exact ⟨h, o', hh, h2, h3, h4, h5, ⟨l, hl, ha⟩⟩
    · show Ok idle (w.poll c).1
      have fc' : FromCache idle (w.poll c).1 := fc
      rw [hp] at fc' ⊢
      have st := stays_clone w.cache cl.cached
      refine ⟨fc', o.agree.clone _, fun x hx => ?_⟩
      rcases List.mem_or_eq_of_mem_set hx with hx | hx
      · refine Fine.grows (w := w) (by exact Grows.same rfl) ?_ (o.clients x hx)
        exact st
      · subst hx
        obtain ⟨h', o', h1, h2, h3, h4, h5, _⟩ := o.clients cl (List.mem_of_getElem? hc)
        rw [hh] at h1; cases h1
        have ce : (w.cache.cloneHandle cl.cached).1.handles = w.cache.handles ++ [h] := by
          unfold IdleCache.World.cloneHandle
          rw [hh]; simp [hv]
        refine ⟨h, o', ?_, h2, ?_, h4, h5, ⟨l, hl, ha⟩, h, ?_, h2, rfl⟩
        · show (w.cache.cloneHandle cl.cached).1.handles[cl.cached]? = some h
          rw [ce, List.getElem?_append_left (IdleCache.lt_of_some hh)]; exact hh
        · show (w.cache.cloneHandle cl.cached).1.handles[cl.oneshot]? = some o'
          rw [ce, List.getElem?_append_left (IdleCache.lt_of_some h3)]; exact h3
        · show (w.cache.cloneHandle cl.cached).1.handles[w.cache.handles.length]? = some h
          rw [ce]; simp
  | clone j => exact keep rfl rfl (stays_clone _ _) (o.agree.clone j) fc
  | beginDrop j => exact keep rfl rfl (stays_drop _ _).1 (o.agree.drop j).1 fc
  | finishDrop j => exact keep rfl rfl (stays_drop _ _).2 (o.agree.drop j).2 fc
  | tick d => exact keep rfl rfl (stays_of_append (hs := []) (by simp [World.step])) ⟨o.agree.entries, o.agree.handles⟩ fc
  | expire id => exact keep rfl rfl (stays_expire _ _) (o.agree.expire id) fc
  | wake id => exact keep rfl rfl (stays_wake _ _ _) (o.agree.wake idle id) fc

theorem ok_run {idle : Nat} : ∀ (ops : List (Op K R E)) {w : World K R E}, Ok idle w → Ok idle (w.run idle ops)
  | [], _, o => o
  | op :: ops, _, o => ok_run ops (ok_step o op)

theorem ok_after (idle : Nat) (ops : List (Op K R E)) : Ok idle (after idle ops) := ok_run ops (ok_init idle)

/-- Handles on a key that are in use are on the same lookup, and there is an entry of the cache for it. -/
theorem Ok.shared {idle : Nat} {w : World K R E} (o : Ok idle w) {h : Held K Nat} (hh : h ∈ w.cache.handles) (hu : h.inUse) :
    ∃ e, w.cache.entries h.key = some e ∧ e.value = h.value := by
  obtain ⟨cops, n, ec⟩ := o.from_cache
  rw [ec] at hh ⊢
  have := IdleCache.C06_lookup_shares_value idle cops h hh hu (n h.key)
  unfold IdleCache.World.lookup IdleCache.World.get at this
  cases he : (IdleCache.after idle cops).entries h.key with
  | none => rw [he] at this; cases this
  | some e =>
    rw [he] at this
    dsimp only at this
    rw [((IdleCache.inv_after idle cops).cached he).2] at this
    exact ⟨e, rfl, by injection this⟩

/-- What is in use is of the client's key. -/
theorem Ok.uses {idle : Nat} {w : World K R E} (o : Ok idle w) {cl : Client K R E} (hc : cl ∈ w.clients) {i : Nat}
    (u : w.uses cl i) : ∃ h ∈ w.cache.handles, h.key = cl.key ∧ h.inUse ∧ h.value = i := by
  obtain ⟨j, h, hj, hh, hu, hv⟩ := u
  refine ⟨h, List.mem_of_getElem? hh, ?_, hu, hv⟩
  obtain ⟨h', o', h1, h2, h3, h4, _, h6⟩ := o.clients cl hc
  rcases hj with rfl | rfl | ⟨r, e⟩
  · rw [hh] at h1; cases h1; exact h2
  · rw [hh] at h3; cases h3; exact h4
  · unfold Told at h6
    rw [e] at h6
    obtain ⟨_, x, x1, x2, _⟩ := h6
    rw [hh] at x1; cases x1; exact x2

/-! ## Theorems -/

/-- **C105.**  Clients and services for the same key, whenever they were made, share one lookup as long as both are in
use. -/
theorem C105_shared (idle : Nat) (ops : List (Op K R E)) (c d : Client K R E) (hc : c ∈ (after idle ops).clients)
    (hd : d ∈ (after idle ops).clients) (hk : c.key = d.key) (i j : Nat) (hi : (after idle ops).uses c i)
    (hj : (after idle ops).uses d j) : i = j := by
  have o := ok_after idle ops
  obtain ⟨h, hh, hk1, hu, rfl⟩ := o.uses hc hi
  obtain ⟨x, hx, hk2, hv, rfl⟩ := o.uses hd hj
  obtain ⟨e, he, hev⟩ := o.shared hh hu
  obtain ⟨f, hf, hfv⟩ := o.shared hx hv
  rw [hk1, hk] at he
  rw [hk2, he] at hf
  cases hf
  rw [← hev, ← hfv]

/-- **C105.**  Whoever is given a service is given one made from what a lookup of their own key found, and whoever fails
fails as a lookup of their own key did; and the service holds on to that lookup. -/
theorem C105_own_answer (idle : Nat) (ops : List (Op K R E)) (c : Client K R E) (hc : c ∈ (after idle ops).clients) :
    (∀ s r, c.outcome = .service s r → ∃ i l h, (after idle ops).lookups[i]? = some l ∧ l.key = c.key ∧
      l.answer = some (.ok r) ∧ (after idle ops).cache.handles[s]? = some h ∧ h.value = i) ∧
    (∀ e, c.outcome = .failed e → ∃ (i : Nat) (l : Lookup K R E), (after idle ops).lookups[i]? = some l ∧ l.key = c.key ∧
      l.answer = some (.error e)) := by
  have o := ok_after idle ops
  obtain ⟨h, _, h1, h2, _, _, _, h6⟩ := o.clients c hc
  obtain ⟨l, hl, hlk⟩ := o.agree.handles h (List.mem_of_getElem? h1)
  unfold Told at h6
  constructor
  · intro s r e
    rw [e] at h6
    obtain ⟨⟨l', hl', ha⟩, x, x1, _, x3⟩ := h6
    rw [hl] at hl'; cases hl'
    exact ⟨h.value, l, x, hl, hlk.trans h2, ha, x1, x3⟩
  · intro e he
    rw [he] at h6
    obtain ⟨l', hl', ha⟩ := h6
    rw [hl] at hl'; cases hl'
    exact ⟨h.value, l, hl, hlk.trans h2, ha⟩

/-- **C105.**  So services for one key that are in use together are made from the same answer. -/
theorem C105_same_answer (idle : Nat) (ops : List (Op K R E)) (c d : Client K R E) (hc : c ∈ (after idle ops).clients)
    (hd : d ∈ (after idle ops).clients) (hk : c.key = d.key) (s t : Nat) (x y : R)
    (hs : c.outcome = .service s x) (ht : d.outcome = .service t y)
    (us : ∀ h, (after idle ops).cache.handles[s]? = some h → h.inUse)
    (ut : ∀ h, (after idle ops).cache.handles[t]? = some h → h.inUse) : x = y := by
  obtain ⟨i, l, h, hl, _, ha, hh, hv⟩ := (C105_own_answer idle ops c hc).1 s x hs
  obtain ⟨j, m, g, hm, _, hb, hg, hw⟩ := (C105_own_answer idle ops d hd).1 t y ht
  have := C105_shared idle ops c d hc hd hk i j ⟨s, h, .inr (.inr ⟨x, hs⟩), hh, us h hh, hv⟩
    ⟨t, g, .inr (.inr ⟨y, ht⟩), hg, ut g hg, hw⟩
  subst this
  rw [hl] at hm; cases hm
  rw [ha] at hb
  simpa using hb

/-- **C105.**  While anything for a key is in use, connecting to it makes no lookup; nothing but connecting makes one; and
connecting makes one at most, of its own key. -/
theorem C105_lookups (idle : Nat) (ops : List (Op K R E)) (k : K) :
    ((after idle ops).inUse k → (after idle (ops ++ [.connect k])).lookups = (after idle ops).lookups) ∧
    (∀ op, (∀ k', op ≠ Op.connect k') →
      (after idle (ops ++ [op])).lookups.map (·.key) = (after idle ops).lookups.map (·.key)) ∧
    ((after idle (ops ++ [.connect k])).lookups = (after idle ops).lookups ∨
      (after idle (ops ++ [.connect k])).lookups = (after idle ops).lookups ++ [⟨k, none⟩]) := by
  have o := ok_after idle ops
  have app : ∀ op, after idle (ops ++ [op]) = ((after idle ops).step idle op).1 := by
    intro op; unfold after World.run; rw [List.foldl_append]; rfl
  refine ⟨fun ⟨h, hh, hk, hu⟩ => ?_, fun op hop => ?_, ?_⟩
  · rw [app]
    obtain ⟨e, he, _⟩ := o.shared hh hu
    rw [hk] at he
    obtain ⟨_, _, _, _, x⟩ := connect_spec o k
    rcases x with ⟨hn, _⟩ | ⟨_, _, _, x⟩
    · rw [he] at hn; cases hn
    · exact x
  · rw [app]
    cases op with
    | connect k' => exact absurd rfl (hop k')
    | answer i a =>
      show ((after idle ops).lookups.modify i (·.resolve a)).map (·.key) = _
      apply List.ext_getElem?
      intro j
      rw [List.getElem?_map, List.getElem?_modify, List.getElem?_map]
      cases (after idle ops).lookups[j]? with
      | none => rfl
      | some l =>
        by_cases q : i = j
        · have : (l.resolve a).key = l.key := by unfold Lookup.resolve; split <;> rfl
          simp [q, this]
        · simp [q]
    | poll c =>
      rcases poll_cases (after idle ops) c with ⟨h, _⟩ | ⟨_, _, _, _, _, _, _, _, hp⟩ | ⟨_, _, _, _, _, _, _, _, _, hp⟩
      · show ((after idle ops).poll c).1.lookups.map _ = _
        rw [h]
      · show ((after idle ops).poll c).1.lookups.map _ = _
        rw [hp]
      · show ((after idle ops).poll c).1.lookups.map _ = _
        rw [hp]
    | _ => rfl
  · rw [app]
    obtain ⟨_, _, _, _, x⟩ := connect_spec o k
    rcases x with ⟨_, _, x⟩ | ⟨_, _, _, x⟩
    · exact .inr x
    · exact .inl x

/-- **C105.**  A client that waits is told the answer of its lookup the next time it is polled, and nothing before there is
one. -/
theorem C105_told (idle : Nat) (ops : List (Op K R E)) (c : Nat) (cl : Client K R E) (h : Held K Nat) (l : Lookup K R E)
    (hc : (after idle ops).clients[c]? = some cl) (hw : cl.outcome = .waiting)
    (hh : (after idle ops).cache.handles[cl.cached]? = some h) (hv : h.life = .live)
    (hl : (after idle ops).lookups[h.value]? = some l) :
    ((after idle ops).step idle (.poll c)).2 = match l.answer with
      | none => .pending
      | some (.ok r) => .service r
      | some (.error e) => .failed e := by
  simp only [World.step, World.poll, hc, hw, hh, hv, hl, if_true, Option.bind_some]
  cases l.answer with
  | none => rfl
  | some a => cases a <;> rfl

/-- The answer of the lookup `i` in a history, the first. -/
def firstAnswer (i : Nat) (ops : List (Op K R E)) : Option (Except E R) :=
  ops.findSome? fun op => match op with
    | .answer j a => if j = i then some a else none
    | _ => none

theorem lookup_step (idle : Nat) {w : World K R E} (o : Ok idle w) (op : Op K R E) (i : Nat) (l : Lookup K R E) (h : w.lookups[i]? = some l) :
    (w.step idle op).1.lookups[i]? = some ⟨l.key, l.answer.or (firstAnswer i [op])⟩ := by
  have keep : (⟨l.key, l.answer.or none⟩ : Lookup K R E) = l := by cases l; simp
  cases op with
  | connect k =>
    obtain ⟨_, _, _, _, x⟩ := connect_spec o k
    have : w.lookups <+: (w.connect k).lookups := by
      rcases x with ⟨_, x⟩ | ⟨_, _, _, x⟩
      · rw [x.2]; exact List.prefix_append _ _
      · rw [x]; exact List.prefix_refl _
    obtain ⟨t, ht⟩ := this
    simp only [World.step, firstAnswer, List.findSome?_cons, List.findSome?_nil, keep]
    rw [← ht, List.getElem?_append_left (lt_of_getElem?_some h), h]
  | answer j a =>
    simp only [World.step, firstAnswer, List.findSome?_cons, List.findSome?_nil]
    rw [List.getElem?_modify, h]
    by_cases hj : j = i
    · subst hj
      cases l with
      | mk k b => cases b <;> simp [Lookup.resolve]
    · simp [hj]
  | poll c =>
    simp only [World.step, firstAnswer, List.findSome?_cons, List.findSome?_nil, keep]
    have : (w.poll c).1.lookups = w.lookups := by
      unfold World.poll
      split
      · rfl
      · split
        · split
          · split <;> rfl
          · rfl
        · rfl
    rw [this, h]
  | _ => simp only [World.step, firstAnswer, List.findSome?_cons, List.findSome?_nil, keep, h]

/-- **C105.**  The answer of a lookup is the first that is given to it, and stays. -/
theorem C105_first_answer (idle : Nat) (ops later : List (Op K R E)) (i : Nat) (l : Lookup K R E)
    (h : (after idle ops).lookups[i]? = some l) :
    (after idle (ops ++ later)).lookups[i]? = some ⟨l.key, l.answer.or (firstAnswer i later)⟩ := by
  induction later using snoc_induction with
  | nil => rw [List.append_nil, h]; cases l; simp [firstAnswer]
  | snoc later op ih =>
    have app : after idle (ops ++ (later ++ [op])) = ((after idle (ops ++ later)).step idle op).1 := by
      rw [← List.append_assoc]; unfold after World.run; rw [List.foldl_append]; rfl
    rw [app, lookup_step idle (ok_after idle _) op i _ ih]
    simp only [firstAnswer, List.findSome?_append, Option.or_assoc]

example : firstAnswer (K := Nat) (R := Nat) (E := Nat) 0 [.connect 7, .answer 1 (.ok 3), .answer 0 (.error 9), .answer 0 (.ok 5)] =
    some (.error 9) := rfl

/-- The steps of the cache in a history. -/
def World.traces (idle : Nat) : World K R E → List (Op K R E) → List (IdleCache.Op K Nat)
  | _, [] => []
  | w, op :: ops => w.trace op ++ World.traces idle (w.step idle op).1 ops

theorem traces_cache (idle : Nat) : ∀ (ops : List (Op K R E)) (w : World K R E),
    (w.run idle ops).cache = (IdleCache.run idle w.cache (w.traces idle ops)).1
  | [], _ => rfl
  | op :: ops, w => by
    show ((w.step idle op).1.run idle ops).cache = _
    rw [traces_cache idle ops, trace_cache]
    show _ = (IdleCache.run idle w.cache (w.trace op ++ World.traces idle (w.step idle op).1 ops)).1
    rw [IdleCache.run_append]

theorem elapsed_append (a b : List (IdleCache.Op K Nat)) :
    IdleCache.elapsed (a ++ b) = IdleCache.elapsed a + IdleCache.elapsed b := by
  induction a with
  | nil => simp [IdleCache.elapsed]
  | cons op a ih =>
    cases op <;> simp only [List.cons_append, IdleCache.elapsed, ih]
    omega

theorem traces_elapsed (idle : Nat) : ∀ (ops : List (Op K R E)) (w : World K R E),
    IdleCache.elapsed (w.traces idle ops) = elapsed ops
  | [], _ => rfl
  | op :: ops, w => by
    show IdleCache.elapsed (w.trace op ++ World.traces idle (w.step idle op).1 ops) = _
    rw [elapsed_append, traces_elapsed idle ops]
    cases op with
    | poll c =>
      simp only [World.trace, elapsed]
      split <;> simp [IdleCache.elapsed]
    | _ => simp [World.trace, elapsed, IdleCache.elapsed]

theorem traces_uses (idle : Nat) (k : K) : ∀ (ops : List (Op K R E)) (w : World K R E), (∀ op ∈ ops, ¬ Asks k op) →
    ∀ op ∈ w.traces idle ops, ¬ IdleCache.Uses k op
  | [], _, _, _, h => by simp [World.traces] at h
  | op :: ops, w, n, x, h => by
    have h : x ∈ w.trace op ++ World.traces idle (w.step idle op).1 ops := h
    rcases List.mem_append.mp h with h | h
    · have q := n op (by simp)
      cases op with
      | connect k' =>
        simp only [World.trace, List.mem_cons, List.not_mem_nil, or_false] at h
        rcases h with rfl | rfl
        · exact q
        · exact id
      | poll c =>
        simp only [World.trace] at h
        split at h
        · simp at h; subst h; exact id
        · simp at h
      | answer => simp [World.trace] at h
      | _ => simp only [World.trace, List.mem_cons, List.not_mem_nil, or_false] at h; subst h; exact id
    · exact traces_uses idle k ops _ (fun op h => n op (by simp [h])) x h

/-- **C105.**  What is no longer used is looked up again: once all that was for a key is dropped, its task has seen that,
nobody has connected to it for the idle time, and its task wakes, the next that connects makes a lookup. -/
theorem C105_again (idle : Nat) (ops later : List (Op K R E)) (k : K) (e : Entry Nat) (id : Nat)
    (he : (after idle ops).cache.entries k = some e) (ht : e.task = some id) (hd : ¬ (after idle ops).inUse k)
    (hn : ∀ op ∈ later, ¬ Asks k op) (htime : idle ≤ elapsed later) :
    (after idle (ops ++ [.wake id] ++ later ++ [.wake id] ++ [.connect k])).lookups =
      (after idle (ops ++ [.wake id] ++ later ++ [.wake id])).lookups ++ [⟨k, none⟩] := by
  obtain ⟨cops, np, ec⟩ := (ok_after idle ops).from_cache
  have run2 : ∀ (a b : List (Op K R E)), after idle (a ++ b) = (after idle a).run idle b := by
    intro a b; unfold after World.run; rw [List.foldl_append]
  have key := IdleCache.C06_idle_entry_is_evicted idle cops
    (((after idle ops).step idle (.wake id)).1.traces idle later) k e.value id
    (by rw [← ec, he]; cases e; simp only at ht; rw [ht])
    (by
      intro h hh hk hu
      exact hd ⟨h, by rw [ec]; exact hh, hk, hu⟩)
    (traces_uses idle k later _ hn) (by rw [traces_elapsed]; exact htime)
  have cache : (after idle (ops ++ [.wake id] ++ later ++ [.wake id])).cache =
      IdleCache.after idle (cops ++ [.wake id] ++ ((after idle ops).step idle (.wake id)).1.traces idle later ++ [.wake id]) := by
    rw [run2, run2, run2]
    unfold IdleCache.after
    rw [IdleCache.run_append, IdleCache.run_append, IdleCache.run_append]
    have e1 : ((after idle ops).run idle [.wake id]).cache = (IdleCache.run idle (IdleCache.run idle IdleCache.init cops).1 [.wake id]).1 := by
      rw [traces_cache, ec]; rfl
    have e2 : (((after idle ops).run idle [.wake id]).run idle later).cache =
        (IdleCache.run idle (IdleCache.run idle (IdleCache.run idle IdleCache.init cops).1 [.wake id]).1
          (((after idle ops).step idle (.wake id)).1.traces idle later)).1 := by
      rw [traces_cache, e1]; rfl
    rw [traces_cache, e2]; rfl
  rw [← cache] at key
  have o := ok_after idle (ops ++ [.wake id] ++ later ++ [.wake id])
  have miss : (after idle (ops ++ [.wake id] ++ later ++ [.wake id])).cache.entries k = none := by
    unfold IdleCache.World.lookup IdleCache.World.get at key
    cases q : (after idle (ops ++ [.wake id] ++ later ++ [.wake id])).cache.entries k with
    | none => rfl
    | some x =>
      rw [q] at key
      dsimp only at key
      rw [(o.from_cache.inv.cached q).2] at key
      cases key
  rw [run2 _ [.connect k]]
  show ((after idle (ops ++ [.wake id] ++ later ++ [.wake id])).connect k).lookups = _
  obtain ⟨_, _, _, _, x⟩ := connect_spec o k
  rcases x with ⟨_, _, x⟩ | ⟨_, x, _⟩
  · exact x
  · rw [miss] at x; cases x

/-! ## Limits -/

/-- **C105, a limit.**  A failure is kept like an answer: as long as the entry of a failed lookup is in the cache, whoever
connects fails as it did, without a lookup. -/
theorem C105_limit_failure_kept (idle : Nat) (ops : List (Op K R E)) (k : K) (e : Entry Nat) (l : Lookup K R E) (x : E)
    (he : (after idle ops).cache.entries k = some e) (hl : (after idle ops).lookups[e.value]? = some l)
    (hx : l.answer = some (.error x)) :
    (after idle (ops ++ [.connect k])).lookups = (after idle ops).lookups ∧
    ((after idle (ops ++ [.connect k])).step idle (.poll (after idle ops).clients.length)).2 = .failed x := by
  have o := ok_after idle ops
  have app : after idle (ops ++ [.connect k]) = (after idle ops).connect k := by
    unfold after World.run; rw [List.foldl_append]; rfl
  obtain ⟨h, hk, hv, hh, y⟩ := connect_spec o k
  rcases y with ⟨hn, _⟩ | ⟨e', he', hev, hL⟩
  · rw [he] at hn; cases hn
  rw [he] at he'; cases he'
  refine ⟨by rw [app]; exact hL, ?_⟩
  have := C105_told idle (ops ++ [.connect k]) (after idle ops).clients.length
    ⟨k, (after idle ops).cache.handles.length, (after idle ops).cache.handles.length + 1, .waiting⟩ h l
    (by rw [app]; simp [World.connect]) rfl (by rw [app, hh]; simp) hv (by rw [app, hL, hev]; exact hl)
  rw [this, hx]

/-! ## Instances -/

/-- Two connect before there is an answer, a third after, and one to another destination: two lookups. -/
def exampleOps : List (Op Char Nat String) :=
  [.connect 'a', .connect 'a', .connect 'b', .poll 0, .answer 0 (.ok 7), .poll 0, .poll 1, .connect 'a', .poll 3,
   .answer 1 (.error "no"), .poll 2]

example : World.outs 10 init exampleOps = [.nothing, .nothing, .nothing, .pending, .nothing, .service 7, .service 7, .nothing,
    .service 7, .nothing, .failed "no"] := by decide +kernel

example : (after 10 exampleOps).lookups.map (·.key) = ['a', 'b'] := by decide +kernel

/-- All handles on `b` are dropped; in the idle time the failure is given again, after it there is a lookup. -/
def dropped : List (Op Char Nat String) := exampleOps ++ [.beginDrop 4, .finishDrop 4, .beginDrop 5, .finishDrop 5]

example : (after 10 (dropped ++ [.connect 'b'])).lookups.map (·.key) = ['a', 'b'] ∧
    ((after 10 (dropped ++ [.connect 'b'])).step 10 (.poll 4)).2 = .failed "no" ∧
    (after 10 (dropped ++ [.wake 1] ++ [.tick 10] ++ [.wake 1] ++ [.connect 'b'])).lookups.map (·.key) = ['a', 'b', 'b'] := by
  decide +kernel

/-- The first two clients use the first lookup. -/
example : ∃ c ∈ (after 10 exampleOps).clients, ∃ d ∈ (after 10 exampleOps).clients, c.key = d.key ∧ c.cached ≠ d.cached ∧
    (after 10 exampleOps).uses c 0 ∧ (after 10 exampleOps).uses d 0 := by
  refine ⟨_, List.mem_of_getElem? (i := 0) rfl, _, List.mem_of_getElem? (i := 1) rfl, rfl, by decide, ?_, ?_⟩
  · exact ⟨0, _, .inl rfl, rfl, by simp [Held.inUse], rfl⟩
  · exact ⟨2, _, .inl rfl, rfl, by simp [Held.inUse], rfl⟩

end Verif.Discover
