import Verif.Common.List
import Verif.InboundPolicy.Store
import Verif.InboundPolicy.TcpProps

/-!
# C32: per-port policy lookup is stable and honours static configuration
-/

namespace Verif.InboundPolicy

open Verif.ServerPolicy

/-! ## Specification -/

/-- The policy for opaque ports made from the default: the same name and limits, the same clients on the connection,
no protocol detection. -/
inductive OpaqueDefault : DefaultPolicy → ServerPolicy → Prop
  | detect (http t tcp m l) : OpaqueDefault (.allow ⟨.detect http t tcp, m, l⟩) ⟨.opaque tcp, m, l⟩
  | opaque (tcp m l) : OpaqueDefault (.allow ⟨.opaque tcp, m, l⟩) ⟨.opaque tcp, m, l⟩
  | deny : OpaqueDefault .deny ⟨.opaque [], .default "deny".toList, {}⟩

/-- A port is marked opaque. -/
def IsOpaque (ranges : List (Nat × Nat)) (port : Nat) : Prop := ∃ r ∈ ranges, r.1 ≤ port ∧ port ≤ r.2

/-- How often a port's policy is looked up, and how often a handle of it is dropped. -/
def gets (port : Nat) (ops : List StoreOp) : Nat :=
  (ops.filter fun o => match o with | .get q => q = port | _ => false).length
def drops (port : Nat) (ops : List StoreOp) : Nat :=
  (ops.filter fun o => match o with | .drop q => q = port | _ => false).length

/-- Handles are dropped only after they have been obtained. -/
def Balanced (port : Nat) (ops : List StoreOp) : Prop := ∀ pre, pre <+: ops → drops port pre ≤ gets port pre

/-- The last update sent on a stream. -/
def lastUpdate (i : Nat) (ops : List StoreOp) : Option ServerPolicy :=
  ops.foldl (fun u o => match o with | .publish j p => if j = i then some p else u | _ => u) none

/-! ## Lemmas -/

theorem store_run_snoc (s : Store) (ops : List StoreOp) (o : StoreOp) : s.run (ops ++ [o]) = ((s.run ops).step o).2 := by
  simp [Store.run]

theorem store_run_append (s : Store) (a b : List StoreOp) : s.run (a ++ b) = (s.run a).run b := by
  simp [Store.run]

theorem inRanges_iff (rs : List (Nat × Nat)) (port : Nat) : inRanges rs port = true ↔ IsOpaque rs port := by
  simp [inRanges, IsOpaque]

theorem mem_portsOf (rs : List (Nat × Nat)) (port : Nat) : port ∈ portsOf rs ↔ IsOpaque rs port := by
  simp only [portsOf, List.mem_flatMap, IsOpaque, List.mem_range'_1]
  constructor
  · rintro ⟨r, h, h1, h2⟩; exact ⟨r, h, h1, by omega⟩
  · rintro ⟨r, h, h1, h2⟩; exact ⟨r, h, h1, by omega⟩

theorem makeOpaque_iff (d : DefaultPolicy) (p : ServerPolicy) :
    (∃ o, makeOpaque d = some o ∧ o.server = p) ↔ OpaqueDefault d p := by
  constructor
  · rintro ⟨o, h, rfl⟩
    cases d with
    | deny => simp only [makeOpaque, Option.some.injEq] at h; subst h; exact .deny
    | allow q =>
      obtain ⟨proto, m, l⟩ := q
      cases proto <;> simp [makeOpaque] at h <;> subst h
      · exact .detect _ _ _ _ _
      · exact .opaque _ _ _
  · intro h
    cases h <;> exact ⟨_, rfl, rfl⟩

theorem lookup_permanent (l : List (Nat × Nat)) (port : Nat) :
    Assoc.lookup port (permanent l) = (Assoc.lookup port l.reverse).map fun i => ⟨i, true, 0⟩ := by
  induction l using snoc_induction with
  | nil => rfl
  | snoc l e ih =>
    simp only [permanent] at ih
    simp only [permanent, List.foldl_append, List.foldl_cons, List.foldl_nil, Assoc.lookup_insert, ih,
      List.reverse_append, List.reverse_cons, List.reverse_nil, List.nil_append, List.singleton_append]
    obtain ⟨q, i⟩ := e
    simp only [Assoc.lookup]
    by_cases h : q = port
    · simp [h]
    · have h' : ¬ port = q := fun e => h e.symm
      simp [h, h']

theorem distinct_permanent (l : List (Nat × Nat)) : Assoc.Distinct (permanent l) := by
  induction l using snoc_induction with
  | nil => simp [permanent, Assoc.Distinct]
  | snoc l e ih =>
    simp only [permanent, List.foldl_append, List.foldl_cons, List.foldl_nil]
    exact Assoc.distinct_insert ih

theorem numbered_get {α : Type} (l : List (Nat × α)) : ∀ n i p a, l[i]? = some (p, a) → (p, n + i) ∈ numbered n l := by
  induction l with
  | nil => simp
  | cons x l ih =>
    intro n i p a h
    obtain ⟨q, b⟩ := x
    cases i with
    | zero => simp only [List.getElem?_cons_zero, Option.some.injEq, Prod.mk.injEq] at h; simp [numbered, h.1]
    | succ i =>
      have := ih (n + 1) i p a (by simpa using h)
      rw [numbered, show n + (i + 1) = n + 1 + i by omega]
      exact .tail _ this

theorem mem_numbered {α : Type} (l : List (Nat × α)) : ∀ n p j, (p, j) ∈ numbered n l →
    ∃ i a, j = n + i ∧ l[i]? = some (p, a) := by
  induction l with
  | nil => simp [numbered]
  | cons x l ih =>
    intro n p j h
    obtain ⟨q, b⟩ := x
    rw [numbered] at h
    rcases List.mem_cons.1 h with h | h
    · simp only [Prod.mk.injEq] at h
      obtain ⟨rfl, rfl⟩ := h
      exact ⟨0, b, by simp, by simp⟩
    · obtain ⟨i, a, rfl, hi⟩ := ih _ _ _ h
      exact ⟨i + 1, a, by omega, by simpa using hi⟩

/-- What is fixed once and for all: the configuration, and which streams there are. -/
structure Keeps (s t : Store) : Prop where
  cfg : t.defaultRx = s.defaultRx ∧ t.opaqueRanges = s.opaqueRanges ∧ t.opaqueDefaultRx = s.opaqueDefaultRx ∧
    t.discover = s.discover
  streams : ∀ (i : Nat) (st : Stream), s.streams[i]? = some st → ∃ v, t.streams[i]? = some ⟨st.discovers, v⟩ ∧
    (st.discovers = none → v = st.value)

theorem Keeps.refl (s : Store) : Keeps s s := ⟨⟨rfl, rfl, rfl, rfl⟩, fun _ st h => ⟨st.value, h, fun _ => rfl⟩⟩

theorem Keeps.trans {s t u : Store} (h : Keeps s t) (h' : Keeps t u) : Keeps s u := by
  refine ⟨⟨h'.cfg.1.trans h.cfg.1, h'.cfg.2.1.trans h.cfg.2.1, h'.cfg.2.2.1.trans h.cfg.2.2.1, h'.cfg.2.2.2.trans h.cfg.2.2.2⟩, ?_⟩
  intro i st hi
  obtain ⟨v, h1, h2⟩ := h.streams i st hi
  obtain ⟨v', h3, h4⟩ := h'.streams i _ h1
  exact ⟨v', h3, fun hd => (h4 hd).trans (h2 hd)⟩

theorem keeps_spawn (s : Store) (port : Nat) : Keeps s (s.spawn port).2 := by
  unfold Store.spawn
  split
  · split
    · refine ⟨⟨rfl, rfl, rfl, rfl⟩, fun i st h => ⟨st.value, ?_, fun _ => rfl⟩⟩
      have := lt_of_getElem?_some h
      simp [List.getElem?_append, this]
      simpa [List.getElem?_eq_getElem this] using h
    · exact .refl s
  · exact .refl s

theorem get_streams (s : Store) (port : Nat) : Keeps s (s.get port).2 := by
  unfold Store.get
  split
  · exact ⟨⟨rfl, rfl, rfl, rfl⟩, (Keeps.refl s).streams⟩
  · have := keeps_spawn s port
    exact ⟨this.cfg, this.streams⟩

theorem keeps_step (s : Store) (o : StoreOp) : Keeps s (s.step o).2 := by
  cases o with
  | get port => exact get_streams s port
  | drop port =>
    simp only [Store.step]
    split
    · exact ⟨⟨rfl, rfl, rfl, rfl⟩, (Keeps.refl s).streams⟩
    · exact .refl s
  | idle port =>
    simp only [Store.step]
    split
    · split
      · exact .refl s
      · exact ⟨⟨rfl, rfl, rfl, rfl⟩, (Keeps.refl s).streams⟩
    · exact .refl s
  | publish j p =>
    simp only [Store.step]
    split
    · rename_i port v hj
      refine ⟨⟨rfl, rfl, rfl, rfl⟩, fun i st h => ?_⟩
      by_cases hij : j = i
      · subst hij
        rw [hj, Option.some.injEq] at h
        subst h
        exact ⟨p, by simp [lt_of_getElem?_some hj], by simp⟩
      · exact ⟨st.value, by simpa [List.getElem?_set, hij] using h, fun _ => rfl⟩
    · exact .refl s

theorem keeps_run (s : Store) (ops : List StoreOp) : Keeps s (s.run ops) := by
  induction ops using snoc_induction with
  | nil => exact .refl s
  | snoc ops o ih => rw [store_run_snoc]; exact ih.trans (keeps_step _ o)

/-- The entry of a port survives, with the stream it has. -/
theorem lookup_step (s : Store) (o : StoreOp) (port : Nat) :
    Assoc.lookup port (s.step o).2.cache =
      match o with
      | .get q =>
        if q = port then
          match Assoc.lookup port s.cache with
          | some e => some { e with held := e.held + 1 }
          | none => some ⟨(s.spawn port).1, false, 1⟩
        else Assoc.lookup port s.cache
      | .drop q =>
        if q = port then (Assoc.lookup port s.cache).map fun e => { e with held := e.held - 1 }
        else Assoc.lookup port s.cache
      | .idle q =>
        if q = port then (Assoc.lookup port s.cache).filter fun e => e.permanent || e.held ≠ 0
        else Assoc.lookup port s.cache
      | .publish _ _ => Assoc.lookup port s.cache := by
  cases o with
  | get q =>
    simp only [Store.step, Store.get]
    by_cases hq : q = port
    · subst hq
      cases h : Assoc.lookup q s.cache with
      | some e => simp [Assoc.lookup_put]
      | none => simp [Assoc.lookup_insert]
    · have hq' : ¬ port = q := fun e => hq e.symm
      cases h : Assoc.lookup q s.cache with
      | some e => simp [Assoc.lookup_put, hq, hq']
      | none =>
        have : (s.spawn q).2.cache = s.cache := by unfold Store.spawn; repeat' split
                                                   all_goals rfl
        simp [Assoc.lookup_insert, hq, hq', this]
  | drop q =>
    simp only [Store.step]
    by_cases hq : q = port
    · subst hq
      cases h : Assoc.lookup q s.cache with
      | some e => simp [Assoc.lookup_put]
      | none => simp [h]
    · have hq' : ¬ port = q := fun e => hq e.symm
      cases h : Assoc.lookup q s.cache with
      | some e => simp [Assoc.lookup_put, hq, hq']
      | none => simp [hq]
  | idle q =>
    simp only [Store.step]
    by_cases hq : q = port
    · subst hq
      cases h : Assoc.lookup q s.cache with
      | some e =>
        by_cases he : e.permanent = true ∨ e.held ≠ 0
        · simp only [he, if_true, h]
          rcases he with he | he <;> simp [Option.filter, he]
        · simp only [he, if_false, Assoc.lookup_erase]
          have h1 : e.permanent = false := by simpa using fun h => he (.inl h)
          have h2 : e.held = 0 := Classical.byContradiction fun h => he (.inr h)
          simp [Option.filter, h1, h2]
      | none => simp [h]
    · have hq' : ¬ port = q := fun e => hq e.symm
      cases h : Assoc.lookup q s.cache with
      | some e => simp only [hq, if_false]; split <;> simp [Assoc.lookup_erase, hq']
      | none => simp [hq]
  | publish i p =>
    simp only [Store.step]
    split <;> rfl

theorem get_cached {s : Store} {port : Nat} {e : Entry} (h : Assoc.lookup port s.cache = some e) :
    (s.get port).1 = e.stream := by
  simp [Store.get, h]

/-- A permanent entry stays. -/
theorem permanent_stays {s : Store} {port i : Nat} (ops : List StoreOp) {k : Nat}
    (h : Assoc.lookup port s.cache = some ⟨i, true, k⟩) :
    ∃ k', Assoc.lookup port (s.run ops).cache = some ⟨i, true, k'⟩ := by
  induction ops using snoc_induction with
  | nil => exact ⟨k, h⟩
  | snoc ops o ih =>
    obtain ⟨k', ih⟩ := ih
    rw [store_run_snoc, lookup_step]
    cases o with
    | get q => simp only [ih]; split <;> exact ⟨_, rfl⟩
    | drop q => simp only [ih]; split <;> exact ⟨_, rfl⟩
    | idle q => simp only [ih]; split <;> exact ⟨_, rfl⟩
    | publish _ _ => exact ⟨_, ih⟩

theorem gets_snoc (port : Nat) (ops : List StoreOp) (o : StoreOp) :
    gets port (ops ++ [o]) = gets port ops + (match o with | .get q => if q = port then 1 else 0 | _ => 0) := by
  cases o with
  | get q => by_cases h : q = port <;> simp [gets, h]
  | _ => simp [gets]

theorem drops_snoc (port : Nat) (ops : List StoreOp) (o : StoreOp) :
    drops port (ops ++ [o]) = drops port ops + (match o with | .drop q => if q = port then 1 else 0 | _ => 0) := by
  cases o with
  | drop q => by_cases h : q = port <;> simp [drops, h]
  | _ => simp [drops]

theorem Balanced.of_snoc {port : Nat} {ops : List StoreOp} {o : StoreOp} (h : Balanced port (ops ++ [o])) :
    Balanced port ops := fun pre hp => h pre (hp.trans (List.prefix_append _ _))

theorem held_stays {s : Store} {port i : Nat} {b : Bool} {k : Nat} (ops : List StoreOp)
    (h : Assoc.lookup port s.cache = some ⟨i, b, k + 1⟩) (hb : Balanced port ops) :
    ∃ k', Assoc.lookup port (s.run ops).cache = some ⟨i, b, k'⟩ ∧ k' + drops port ops = k + 1 + gets port ops := by
  induction ops using snoc_induction with
  | nil => exact ⟨k + 1, h, by simp [gets, drops]⟩
  | snoc ops o ih =>
    obtain ⟨k', h1, h2⟩ := ih hb.of_snoc
    have hbal := hb _ (List.prefix_refl _)
    have hbal' := hb.of_snoc _ (List.prefix_refl _)
    rw [store_run_snoc, lookup_step]
    rw [gets_snoc, drops_snoc] at *
    cases o with
    | get q =>
      simp only [h1]
      by_cases hq : q = port
      · simp only [hq, if_true]; exact ⟨k' + 1, rfl, by omega⟩
      · simp only [hq, if_false]; exact ⟨k', rfl, by omega⟩
    | drop q =>
      simp only [h1]
      by_cases hq : q = port
      · simp only [hq, if_true] at hbal ⊢; exact ⟨k' - 1, rfl, by omega⟩
      · simp only [hq, if_false]; exact ⟨k', rfl, by omega⟩
    | idle q =>
      simp only [h1]
      by_cases hq : q = port
      · simp only [hq, if_true]
        have : k' ≠ 0 := by omega
        exact ⟨k', by simp [Option.filter, this], by omega⟩
      · simp only [hq, if_false]; exact ⟨k', rfl, by omega⟩
    | publish j p => exact ⟨k', h1, by simpa using h2⟩

/-- In a store that discovers, a port's entry reads a stream discovered for that port. -/
def Own (s : Store) : Prop :=
  s.discover = true ∧ s.opaqueDefaultRx = 0 ∧ s.defaultRx = 1 ∧ 2 ≤ s.streams.length ∧
  ∀ port e, Assoc.lookup port s.cache = some e → ∃ v, s.streams[e.stream]? = some ⟨some port, v⟩

theorem spawn_own {s : Store} (h : Own s) (port : Nat) :
    (s.spawn port).1 = s.streams.length ∧ ∃ init,
      s.value (if inRanges s.opaqueRanges port then 0 else 1) = some init ∧
      (s.spawn port).2 = { s with streams := s.streams ++ [⟨some port, init⟩] } := by
  obtain ⟨hd, h0, h1, hl, _⟩ := h
  have : ∃ init, s.value (if inRanges s.opaqueRanges port then 0 else 1) = some init := by
    unfold Store.value
    split
    · exact ⟨_, by rw [List.getElem?_eq_getElem (by omega)]; rfl⟩
    · exact ⟨_, by rw [List.getElem?_eq_getElem (by omega)]; rfl⟩
  obtain ⟨init, hi⟩ := this
  refine ⟨?_, init, hi, ?_⟩ <;> simp [Store.spawn, hd, h0, h1, hi]

theorem own_step {s : Store} (h : Own s) (o : StoreOp) : Own (s.step o).2 := by
  have hk := keeps_step s o
  obtain ⟨hd, h0, h1, hl, hc⟩ := h
  refine ⟨hk.cfg.2.2.2.trans hd, hk.cfg.2.2.1.trans h0, hk.cfg.1.trans h1, ?_, ?_⟩
  · obtain ⟨v, hv, _⟩ := hk.streams 1 _ (List.getElem?_eq_getElem (by omega))
    have := lt_of_getElem?_some hv
    omega
  · intro port e he
    have keep : ∀ e', Assoc.lookup port s.cache = some e' → ∃ v, (s.step o).2.streams[e'.stream]? = some ⟨some port, v⟩ := by
      intro e' he'
      obtain ⟨v, hv⟩ := hc port e' he'
      obtain ⟨v', hv', _⟩ := hk.streams _ _ hv
      exact ⟨v', hv'⟩
    rw [lookup_step] at he
    cases o with
    | get q =>
      dsimp only at he
      by_cases hq : q = port
      · simp only [hq, if_true] at he
        cases hl' : Assoc.lookup port s.cache with
        | some e' =>
          rw [hl'] at he
          simp only [Option.some.injEq] at he
          subst he
          exact keep e' hl'
        | none =>
          rw [hl'] at he
          simp only [Option.some.injEq] at he
          subst he
          obtain ⟨hn, init, _, hs⟩ := spawn_own ⟨hd, h0, h1, hl, hc⟩ port
          refine ⟨init, ?_⟩
          subst hq
          simp [Store.step, Store.get, hl', hs, hn]
      · simp only [hq, if_false] at he; exact keep e he
    | drop q =>
      dsimp only at he
      by_cases hq : q = port
      · simp only [hq, if_true, Option.map_eq_some_iff] at he
        obtain ⟨e', he', rfl⟩ := he
        exact keep e' he'
      · simp only [hq, if_false] at he; exact keep e he
    | idle q =>
      dsimp only at he
      by_cases hq : q = port
      · simp only [hq, if_true, Option.filter_eq_some_iff] at he
        exact keep e he.1
      · simp only [hq, if_false] at he; exact keep e he
    | publish j p => exact keep e he

theorem own_run {s : Store} (h : Own s) (ops : List StoreOp) : Own (s.run ops) := by
  induction ops using snoc_induction with
  | nil => exact h
  | snoc ops o ih => rw [store_run_snoc]; exact own_step ih o

theorem own_spawnDiscover {d : DefaultPolicy} {ports : List Nat} {rs : List (Nat × Nat)} {s : Store}
    (h : spawnDiscover d ports rs = some s) : Own s := by
  simp only [spawnDiscover, Option.map_eq_some_iff] at h
  obtain ⟨o, _, rfl⟩ := h
  refine ⟨rfl, rfl, rfl, by simp, ?_⟩
  intro port e he
  dsimp only at he
  rw [lookup_permanent, Option.map_eq_some_iff] at he
  obtain ⟨j, hj, rfl⟩ := he
  have := Assoc.mem_of_lookup hj
  rw [List.mem_reverse] at this
  obtain ⟨i, a, rfl, hi⟩ := mem_numbered _ _ _ _ this
  have hi' : ports[i]? = some port := by simpa using hi
  refine ⟨if inRanges rs port then o.server else d.server, ?_⟩
  simp only [show 2 + i = i + 1 + 1 by omega, List.getElem?_cons_succ, List.getElem?_map, hi', Option.map_some]

/-! ## Theorems -/

/-- Without discovery, whatever has happened, a lookup reads the policy configured for the port, else the opaque
default if the port is marked opaque, else the default. -/
theorem C32_fixed_policy (d : DefaultPolicy) (ports : List (Nat × ServerPolicy)) (rs : List (Nat × Nat)) (s : Store)
    (h : spawnFixed d ports rs = some s) (hd : Assoc.Distinct ports) (o : ServerPolicy) (ho : OpaqueDefault d o)
    (ops : List StoreOp) (port : Nat) :
    let r := (s.run ops).get port
    (∀ p, (port, p) ∈ ports → r.2.value r.1 = some p) ∧
    (port ∉ ports.map Prod.fst → IsOpaque rs port → r.2.value r.1 = some o) ∧
    (port ∉ ports.map Prod.fst → ¬ IsOpaque rs port → r.2.value r.1 = some d.server) := by
  intro r
  simp only [spawnFixed, Option.map_eq_some_iff] at h
  obtain ⟨o', ho', hs⟩ := h
  have heq : o'.server = o := by
    obtain ⟨o'', h1, h2⟩ := (makeOpaque_iff d o).2 ho
    rw [ho', Option.some.injEq] at h1
    rw [h1, h2]
  have value_of : ∀ i v, s.streams[i]? = some ⟨none, v⟩ → r.1 = i → r.2.value r.1 = some v := by
    intro i v hi hr
    obtain ⟨v', h1, h2⟩ := ((keeps_run s ops).trans (get_streams _ port)).streams i _ hi
    rw [hr, Store.value, h1, h2 rfl]
    rfl
  have cached_of : ∀ i, Assoc.lookup port ((portsOf rs).map (·, 0) ++ numbered 2 ports).reverse = some i → r.1 = i := by
    intro i hi
    have h1 : Assoc.lookup port s.cache = some ⟨i, true, 0⟩ := by
      rw [← hs]; dsimp only; rw [lookup_permanent, hi]; rfl
    obtain ⟨k, h2⟩ := permanent_stays ops h1
    exact get_cached h2
  have hnum : ∀ i, (port, i) ∈ numbered 2 ports → port ∈ ports.map Prod.fst := by
    intro i hi
    obtain ⟨j, p, _, hj⟩ := mem_numbered _ _ _ _ hi
    exact List.mem_map.2 ⟨_, List.mem_of_getElem? hj, rfl⟩
  have hopq : ∀ l : List Nat, port ∈ l → Assoc.lookup port (l.map (·, 0)).reverse = some 0 := by
    intro l hl
    cases h : Assoc.lookup port (l.map (·, 0)).reverse with
    | none =>
      exfalso
      rw [Assoc.lookup_none_iff] at h
      apply h
      simp only [List.map_reverse, List.mem_reverse, List.map_map]
      exact List.mem_map.2 ⟨port, hl, rfl⟩
    | some i =>
      have := Assoc.mem_of_lookup h
      simp only [List.mem_reverse, List.mem_map, Prod.mk.injEq] at this
      obtain ⟨_, _, _, rfl⟩ := this
      rfl
  have hout : ∀ l : List Nat, port ∉ l → Assoc.lookup port (l.map (·, 0)).reverse = none := by
    intro l hl
    rw [Assoc.lookup_none_iff]
    simp only [List.map_reverse, List.mem_reverse, List.map_map]
    rintro h
    obtain ⟨q, hq, hqe⟩ := List.mem_map.1 h
    exact hl (hqe ▸ hq)
  refine ⟨?_, ?_, ?_⟩
  · intro p hp
    obtain ⟨i, hi⟩ := List.getElem?_of_mem hp
    refine value_of (2 + i) p ?_ (cached_of _ ?_)
    · rw [← hs]
      simp only [show 2 + i = i + 1 + 1 by omega, List.getElem?_cons_succ, List.getElem?_map, hi, Option.map_some]
    · rw [List.reverse_append, Assoc.lookup_append]
      have : Assoc.lookup port (numbered 2 ports).reverse = some (2 + i) := by
        cases h : Assoc.lookup port (numbered 2 ports).reverse with
        | none =>
          exfalso
          rw [Assoc.lookup_none_iff] at h
          apply h
          have := numbered_get ports 2 i port p hi
          exact List.mem_map.2 ⟨_, List.mem_reverse.2 this, rfl⟩
        | some j =>
          have hm := Assoc.mem_of_lookup h
          rw [List.mem_reverse] at hm
          obtain ⟨i', p', rfl, hi'⟩ := mem_numbered _ _ _ _ hm
          have e1 : (ports.map Prod.fst)[i]? = some port := by simp [hi]
          have e2 : (ports.map Prod.fst)[i']? = some port := by simp [hi']
          have : i' = i := by
            have hlt := lt_of_getElem?_some e2
            exact (List.getElem?_inj hlt hd).1 (e2.trans e1.symm)
          rw [this]
      rw [this]
      rfl
  · intro hp hopaque
    refine value_of 0 o ?_ (cached_of _ ?_)
    · rw [← hs]; simp [heq]
    · rw [List.reverse_append, Assoc.lookup_append]
      have : Assoc.lookup port (numbered 2 ports).reverse = none := by
        rw [Assoc.lookup_none_iff]
        intro hm
        obtain ⟨⟨q, i⟩, hm', hq⟩ := List.mem_map.1 hm
        dsimp only at hq
        subst hq
        exact hp (hnum i (List.mem_reverse.1 hm'))
      rw [this, hopq _ ((mem_portsOf rs port).2 hopaque)]
      rfl
  · intro hp hopaque
    have hnone : Assoc.lookup port s.cache = none := by
      rw [← hs]
      dsimp only
      rw [lookup_permanent, List.reverse_append, Assoc.lookup_append]
      have : Assoc.lookup port (numbered 2 ports).reverse = none := by
        rw [Assoc.lookup_none_iff]
        intro hm
        obtain ⟨⟨q, i⟩, hm', hq⟩ := List.mem_map.1 hm
        dsimp only at hq
        subst hq
        exact hp (hnum i (List.mem_reverse.1 hm'))
      rw [this, hout _ (fun h => hopaque ((mem_portsOf rs port).1 h))]
      rfl
    have hs1 : s.discover = false ∧ s.defaultRx = 1 := by rw [← hs]; exact ⟨rfl, rfl⟩
    have hall : ∀ e, Assoc.lookup port (s.run ops).cache = some e → e.stream = 1 := by
      clear value_of cached_of r
      induction ops using snoc_induction with
      | nil => intro e he; rw [show s.run [] = s from rfl, hnone] at he; simp at he
      | snoc ops o' ih =>
        intro e he
        rw [store_run_snoc, lookup_step] at he
        have hk := (keeps_run s ops).cfg
        cases o' with
        | get q =>
          dsimp only at he
          by_cases hq : q = port
          · simp only [hq, if_true] at he
            cases hl' : Assoc.lookup port (s.run ops).cache with
            | some e' =>
              rw [hl'] at he
              simp only [Option.some.injEq] at he
              subst he
              exact ih e' hl'
            | none =>
              rw [hl'] at he
              simp only [Option.some.injEq] at he
              subst he
              simp [Store.spawn, hk.2.2.2, hs1.1, hk.1, hs1.2]
          · simp only [hq, if_false] at he; exact ih e he
        | drop q =>
          dsimp only at he
          by_cases hq : q = port
          · simp only [hq, if_true, Option.map_eq_some_iff] at he
            obtain ⟨e', he', rfl⟩ := he
            exact ih e' he'
          · simp only [hq, if_false] at he; exact ih e he
        | idle q =>
          dsimp only at he
          by_cases hq : q = port
          · simp only [hq, if_true, Option.filter_eq_some_iff] at he
            exact ih e he.1
          · simp only [hq, if_false] at he; exact ih e he
        | publish j p => exact ih e he
    refine value_of 1 d.server (by rw [← hs]; rfl) ?_
    show ((s.run ops).get port).1 = 1
    cases hl : Assoc.lookup port (s.run ops).cache with
    | some e => rw [get_cached hl]; exact hall e hl
    | none =>
      have hk := (keeps_run s ops).cfg
      simp [Store.get, hl, Store.spawn, hk.2.2.2, hs1.1, hk.1, hs1.2]

/-- With discovery, a lookup reads a stream that is discovered for that port, and no other port reads it. -/
theorem C32_discovered_for_its_port (d : DefaultPolicy) (ports : List Nat) (rs : List (Nat × Nat)) (s : Store)
    (h : spawnDiscover d ports rs = some s) (ops : List StoreOp) (port : Nat) :
    let r := (s.run ops).get port
    (∃ v, r.2.streams[r.1]? = some ⟨some port, v⟩) ∧
    ∀ ops' port', ((r.2.run ops').get port').1 = r.1 → port' = port := by
  intro r
  have key : ∀ (s : Store), Own s → ∀ port, ∃ v, (s.get port).2.streams[(s.get port).1]? = some ⟨some port, v⟩ := by
    intro s hs port
    have hstep := own_step hs (.get port)
    have hl := lookup_step s (.get port) port
    simp only [if_true] at hl
    cases hc : Assoc.lookup port s.cache with
    | some e =>
      rw [hc] at hl
      obtain ⟨v, hv⟩ := hstep.2.2.2.2 port _ hl
      exact ⟨v, by rw [get_cached hc]; exact hv⟩
    | none =>
      rw [hc] at hl
      obtain ⟨v, hv⟩ := hstep.2.2.2.2 port _ hl
      exact ⟨v, by simpa [Store.get, hc, Store.step] using hv⟩
  have hown := own_run (own_spawnDiscover h) ops
  obtain ⟨v, hv⟩ := key _ hown port
  refine ⟨⟨v, hv⟩, ?_⟩
  intro ops' port' heq
  have hown' := own_run (own_step hown (.get port)) ops'
  obtain ⟨v', hv'⟩ := key _ hown' port'
  obtain ⟨v'', hv'', _⟩ := ((keeps_run r.2 ops').trans (get_streams _ port')).streams _ _ hv
  rw [show (((s.run ops).step (.get port)).2.run ops').get port' = (r.2.run ops').get port' from rfl] at hv'
  rw [heq] at hv'
  have e := hv''.symm.trans hv'
  simp only [Option.some.injEq, Stream.mk.injEq] at e
  exact e.1.symm

/-- With discovery, a port's policy starts as the opaque default if the port is marked opaque and as the default
otherwise: both for the configured ports and for those met later. -/
theorem C32_first_policy (d : DefaultPolicy) (ports : List Nat) (rs : List (Nat × Nat)) (s : Store)
    (h : spawnDiscover d ports rs = some s) (o : ServerPolicy) (ho : OpaqueDefault d o) (port : Nat) :
    (port ∈ ports → ∃ i, (s.get port).1 = i ∧ (IsOpaque rs port → s.value i = some o) ∧
      (¬ IsOpaque rs port → s.value i = some d.server)) ∧
    (∀ ops, Assoc.lookup port (s.run ops).cache = none →
      let r := (s.run ops).get port
      (IsOpaque rs port → r.2.value r.1 = some o) ∧ (¬ IsOpaque rs port → r.2.value r.1 = some d.server)) := by
  have hown := own_spawnDiscover h
  simp only [spawnDiscover, Option.map_eq_some_iff] at h
  obtain ⟨o', ho', hs⟩ := h
  have heq : o'.server = o := by
    obtain ⟨o'', h1, h2⟩ := (makeOpaque_iff d o).2 ho
    rw [ho', Option.some.injEq] at h1
    rw [h1, h2]
  constructor
  · intro hp
    have hsome : ∃ j, Assoc.lookup port (numbered 2 (ports.map (·, ()))).reverse = some j := by
      cases h : Assoc.lookup port (numbered 2 (ports.map (·, ()))).reverse with
      | some j => exact ⟨j, rfl⟩
      | none =>
        exfalso
        rw [Assoc.lookup_none_iff] at h
        apply h
        obtain ⟨i, hi⟩ := List.getElem?_of_mem hp
        have := numbered_get (ports.map (·, ())) 2 i port () (by simp [hi])
        exact List.mem_map.2 ⟨_, List.mem_reverse.2 this, rfl⟩
    obtain ⟨j, hj⟩ := hsome
    have hm := Assoc.mem_of_lookup hj
    rw [List.mem_reverse] at hm
    obtain ⟨i, _, rfl, hi⟩ := mem_numbered _ _ _ _ hm
    have hi' : ports[i]? = some port := by simpa using hi
    have hl : Assoc.lookup port s.cache = some ⟨2 + i, true, 0⟩ := by
      rw [← hs]; dsimp only; rw [lookup_permanent, hj]; rfl
    have hv : s.value (2 + i) = some (if inRanges rs port then o'.server else d.server) := by
      rw [← hs]
      simp only [Store.value, show 2 + i = i + 1 + 1 by omega, List.getElem?_cons_succ, List.getElem?_map, hi',
        Option.map_some]
    refine ⟨2 + i, get_cached hl, fun hopq => ?_, fun hopq => ?_⟩
    · rw [hv, if_pos ((inRanges_iff rs port).2 hopq), heq]
    · rw [hv, if_neg (fun h => hopq ((inRanges_iff rs port).1 h))]
  · intro ops hnone r
    have hk := keeps_run s ops
    have hsp := spawn_own (own_run hown ops) port
    obtain ⟨hn, init, hinit, hspawn⟩ := hsp
    have hrs : (s.run ops).opaqueRanges = rs := by rw [hk.cfg.2.1, ← hs]
    have hval : r.2.value r.1 = some init := by
      show ((s.run ops).get port).2.value ((s.run ops).get port).1 = some init
      simp [Store.get, hnone, Store.value, hspawn, hn]
    have hzero : (s.run ops).value 0 = some o := by
      obtain ⟨v, hv, hv'⟩ := hk.streams 0 ⟨none, o'.server⟩ (by rw [← hs]; rfl)
      rw [Store.value, hv, hv' rfl, ← heq]; rfl
    have hone : (s.run ops).value 1 = some d.server := by
      obtain ⟨v, hv, hv'⟩ := hk.streams 1 ⟨none, d.server⟩ (by rw [← hs]; rfl)
      rw [Store.value, hv, hv' rfl]; rfl
    rw [hrs] at hinit
    constructor
    · intro hopq
      rw [if_pos ((inRanges_iff rs port).2 hopq), hzero] at hinit
      rw [hval, hinit]
    · intro hopq
      rw [if_neg (fun h => hopq ((inRanges_iff rs port).1 h)), hone] at hinit
      rw [hval, hinit]

/-- Once it exists, a stream holds the last update sent on it, if it is discovered, and never changes otherwise. -/
theorem C32_stream_follows_updates (s : Store) (i : Nat) (st : Stream) (h : s.streams[i]? = some st)
    (ops : List StoreOp) :
    (s.run ops).value i = if st.discovers.isSome then some ((lastUpdate i ops).getD st.value) else some st.value := by
  cases hd : st.discovers with
  | none =>
    obtain ⟨v, h1, h2⟩ := (keeps_run s ops).streams i st h
    simp [Store.value, h1, h2 hd]
  | some port =>
    simp only [Option.isSome_some, if_true]
    have hk := fun ops => (keeps_run s ops).streams i st h
    induction ops using snoc_induction with
    | nil => simp [Store.run, Store.value, h, lastUpdate]
    | snoc ops o ih =>
      obtain ⟨v, h1, -⟩ := hk ops
      rw [hd] at h1
      have hv : v = (lastUpdate i ops).getD st.value := by simpa [Store.value, h1] using ih
      have same : ∀ t : Store, Keeps (s.run ops) t → t.streams = (s.run ops).streams ∨
          (∃ x, t.streams = (s.run ops).streams ++ [x]) → t.value i = some v := by
        rintro t - (ht | ⟨x, ht⟩)
        · simp [Store.value, ht, h1]
        · simp [Store.value, ht, List.getElem?_append, lt_of_getElem?_some h1, h1]
          have := lt_of_getElem?_some h1
          rw [List.getElem?_eq_getElem this, Option.some.injEq] at h1
          simp [h1]
      have hsame : ∀ t, lastUpdate i (ops ++ [t]) = (match t with | .publish j p => if j = i then some p else lastUpdate i ops | _ => lastUpdate i ops) := by
        intro t; simp [lastUpdate]
      rw [store_run_snoc, hsame]
      cases o with
      | get q =>
        dsimp only
        rw [← hv]
        refine same _ (keeps_step _ _) ?_
        simp only [Store.step, Store.get]
        split
        · exact .inl rfl
        · unfold Store.spawn
          split
          · split
            · exact .inr ⟨_, rfl⟩
            · exact .inl rfl
          · exact .inl rfl
      | drop q =>
        dsimp only
        rw [← hv]
        refine same _ (keeps_step _ _) (.inl ?_)
        simp only [Store.step]
        split <;> rfl
      | idle q =>
        dsimp only
        rw [← hv]
        refine same _ (keeps_step _ _) (.inl ?_)
        simp only [Store.step]
        split
        · split <;> rfl
        · rfl
      | publish j p =>
        dsimp only
        by_cases hj : j = i
        · subst hj
          simp only [Store.step, h1, if_true]
          simp [Store.value, lt_of_getElem?_some h1]
        · rw [if_neg hj, ← hv]
          simp only [Store.step]
          split
          · simp [Store.value, List.getElem?_set, hj, h1]
          · simp [Store.value, h1]

/-- While somebody holds the policy of a port, looking it up again reads the same stream. -/
theorem C32_held_port_keeps_its_stream (s : Store) (port : Nat) (ops : List StoreOp) (hb : Balanced port ops) :
    (((s.get port).2.run ops).get port).1 = (s.get port).1 := by
  have hl := lookup_step s (.get port) port
  simp only [if_true] at hl
  have : ∃ b k, Assoc.lookup port (s.get port).2.cache = some ⟨(s.get port).1, b, k + 1⟩ := by
    cases hc : Assoc.lookup port s.cache with
    | some e =>
      rw [hc] at hl
      exact ⟨e.permanent, e.held, by rw [get_cached hc]; exact hl⟩
    | none =>
      rw [hc] at hl
      refine ⟨false, 0, ?_⟩
      have h1 : (s.get port).1 = (s.spawn port).1 := by simp [Store.get, hc]
      rw [h1]
      exact hl
  obtain ⟨b, k, hk⟩ := this
  obtain ⟨k', h1, -⟩ := held_stays ops hk hb
  exact get_cached h1

/-- The ports configured at startup read the same stream for ever, held or not. -/
theorem C32_configured_port_keeps_its_stream (d : DefaultPolicy) (ports : List Nat) (rs : List (Nat × Nat)) (s : Store)
    (h : spawnDiscover d ports rs = some s) (port : Nat) (hp : port ∈ ports) (ops ops' : List StoreOp) :
    ((s.run ops).get port).1 = ((s.run ops').get port).1 := by
  simp only [spawnDiscover, Option.map_eq_some_iff] at h
  obtain ⟨o', ho', hs⟩ := h
  have : ∃ i, Assoc.lookup port s.cache = some ⟨i, true, 0⟩ := by
    cases h : Assoc.lookup port (numbered 2 (ports.map (·, ()))).reverse with
    | some j => exact ⟨j, by rw [← hs]; dsimp only; rw [lookup_permanent, h]; rfl⟩
    | none =>
      exfalso
      rw [Assoc.lookup_none_iff] at h
      apply h
      obtain ⟨i, hi⟩ := List.getElem?_of_mem hp
      have := numbered_get (ports.map (·, ())) 2 i port () (by simp [hi])
      exact List.mem_map.2 ⟨_, List.mem_reverse.2 this, rfl⟩
  obtain ⟨i, hi⟩ := this
  obtain ⟨k, hk⟩ := permanent_stays ops hi
  obtain ⟨k', hk'⟩ := permanent_stays ops' hi
  rw [get_cached hk, get_cached hk']

/-- Building a store fails only for a default policy that is neither opaque nor detecting; none of the default
policies that can be configured is. -/
theorem C32_defaults_can_be_made_opaque (d : DefaultPolicy) :
    (makeOpaque d = none ↔ ∀ o, ¬ OpaqueDefault d o) ∧
    ∀ name nets authn t, d = .allow (mkDefault name nets authn t) → makeOpaque d ≠ none := by
  have h1 : makeOpaque d = none ↔ ∀ o, ¬ OpaqueDefault d o := by
    constructor
    · intro h o ho
      obtain ⟨o', h', _⟩ := (makeOpaque_iff d o).2 ho
      rw [h] at h'
      simp at h'
    · intro h
      cases hm : makeOpaque d with
      | none => rfl
      | some o => exact absurd ((makeOpaque_iff d o.server).1 ⟨o, hm, rfl⟩) (h _)
  refine ⟨h1, ?_⟩
  rintro name nets authn t rfl
  simp [makeOpaque, mkDefault]

/-- Marking a port opaque does not change which connections its default policy accepts. -/
theorem C32_opaque_default_admits_the_same (d : DefaultPolicy) (o : ServerPolicy) (h : OpaqueDefault d o) (client : Ip)
    (tls : Tls) : checkAuthorized o client tls = checkAuthorized d.server client tls := by
  cases h <;> rfl

/-- A default of `deny` accepts no connection. -/
theorem C32_deny (client : Ip) (tls : Tls) : checkAuthorized DefaultPolicy.deny.server client tls = none := rfl

/-! ## Concrete cases -/

def sampleDefault : DefaultPolicy := .allow (allUnauthenticated 10)

example : ∃ s, spawnFixed sampleDefault [(80, .invalid 1)] [(25, 25), (3306, 3308)] = some s ∧
    Assoc.Distinct [((80 : Nat), ServerPolicy.invalid 1)] ∧ IsOpaque [(25, 25), (3306, 3308)] 3307 ∧
    ¬ IsOpaque [(25, 25), (3306, 3308)] 80 :=
  ⟨_, rfl, by simp [Assoc.Distinct], by simp [IsOpaque], by simp [IsOpaque]⟩

example : Balanced 80 [.get 80, .drop 80, .idle 80, .get 81, .drop 81] := by
  intro pre h
  rw [List.prefix_iff_eq_take] at h
  generalize pre.length = n at h
  subst h
  rcases n with _ | _ | _ | _ | _ | _ | n <;> first | decide | (rw [List.take_of_length_le (by simp)]; decide)

/-- When nobody holds it, a port that was not configured gets a new stream after the idle timeout. -/
example : (spawnDiscover sampleDefault [80] []).map (fun s =>
    [(s.run [.get 81]).get 81 |>.1, (s.run [.get 81, .drop 81, .idle 81]).get 81 |>.1,
      (s.run [.get 80, .drop 80, .idle 80]).get 80 |>.1, (s.get 80).1]) = some [3, 4, 2, 2] := rfl

end Verif.InboundPolicy
