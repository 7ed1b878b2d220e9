import Verif.Zone.Model
import Verif.ApiResolve.Props

/-!
# C126: the bytes exchanged with endpoints are counted by their zone
-/

namespace Verif.Zone

open Verif.Metrics Verif.Metrics.Transport

/-! ## Specification -/

/-- The zones of the endpoints that were connected to, in order: connections have these numbers. -/
def zones (tr : List (Op × Option Answer)) : List Metrics.Zone :=
  tr.filterMap fun
    | (.connect md, _) => some (locality md)
    | _ => none

/-- The bytes that a poll moved: received, or sent. -/
def moved : Poll → Answer → Dir → Nat
  | .read, .ok n, .recv => n
  | .write, .ok n, .send => n
  | .writeVectored, .ok n, .send => n
  | _, _, _ => 0

/-- The bytes that the users of connections to a zone's endpoints were told of. -/
def exchanged (zs : List Metrics.Zone) (d : Dir) (z : Metrics.Zone) : List (Op × Option Answer) → Nat
  | [] => 0
  | (.poll i p _, some a) :: tr => (if zs[i]? = some z then moved p a d else 0) + exchanged zs d z tr
  | _ :: tr => exchanged zs d z tr

/-! ## Proofs -/

theorem run_snoc (s : State) (ops : List Op) (o : Op) :
    run s (ops ++ [o]) = ((step (run s ops).1 o).1, (run s ops).2 ++ [(o, (step (run s ops).1 o).2)]) := by
  induction ops generalizing s with
  | nil => rfl
  | cons a ops ih => simp [run, ih]

theorem exchanged_append (zs : List Metrics.Zone) (d : Dir) (z : Metrics.Zone) (a c : List (Op × Option Answer)) :
    exchanged zs d z (a ++ c) = exchanged zs d z a + exchanged zs d z c := by
  induction a with
  | nil => simp [exchanged]
  | cons x a ih =>
    obtain ⟨o, r⟩ := x
    match o, r with
    | .poll i p b, some r => simp only [List.cons_append, exchanged, ih, Nat.add_assoc]
    | .poll i p b, none => exact ih
    | .connect md, _ => exact ih
    | .connected i, _ => exact ih
    | .failed i, _ => exact ih
    | .drop i, _ => exact ih

/-- Polls are of connections that were made before: those made later do not matter. -/
theorem exchanged_later (zs more : List Metrics.Zone) (d : Dir) (z : Metrics.Zone) (tr : List (Op × Option Answer))
    (h : ∀ i p a r, (Op.poll i p a, some r) ∈ tr → i < zs.length) : exchanged (zs ++ more) d z tr = exchanged zs d z tr := by
  induction tr with
  | nil => rfl
  | cons x tr ih =>
    have ih := ih fun i p a r hm => h i p a r (List.mem_cons_of_mem _ hm)
    obtain ⟨o, r⟩ := x
    match o, r, h with
    | .poll i p b, some r, h =>
      simp only [exchanged, ih, List.getElem?_append_left (h i p b r (by simp))]
    | .poll i p b, none, _ => exact ih
    | .connect md, _, _ => exact ih
    | .connected i, _, _ => exact ih
    | .failed i, _, _ => exact ih
    | .drop i, _, _ => exact ih

theorem zones_append (a c : List (Op × Option Answer)) : zones (a ++ c) = zones a ++ zones c := List.filterMap_append

theorem lookup_create (f : Family) (l k : Label) :
    Assoc.lookup k (f.create l) = if k = l then some ((Assoc.lookup k f).getD 0) else Assoc.lookup k f := by
  unfold Family.create
  split
  · rename_i h
    obtain ⟨v, hv⟩ := Option.isSome_iff_exists.1 h
    split
    · rename_i e; subst e; simp [hv]
    · rfl
  · rename_i h
    rw [Assoc.lookup_put]
    split
    · rename_i e; subst e
      simp at h
      simp [h]
    · rfl

theorem lookup_inc (f : Family) (l k : Label) (n : Nat) :
    Assoc.lookup k (f.inc l n) = if k = l then some (add64 ((Assoc.lookup k f).getD 0) n) else Assoc.lookup k f := by
  unfold Family.inc
  rw [Assoc.lookup_put]
  split
  · rename_i e; subst e; rfl
  · rfl

structure Inv (s : State) (tr : List (Op × Option Answer)) : Prop where
  zones : s.conns.map Conn.counters = (zones tr).map zoneLabels
  polls : ∀ i p a r, (Op.poll i p a, some r) ∈ tr → i < (Zone.zones tr).length
  family : ∀ d z, Assoc.lookup (d, z) s.family =
    if z ∈ Zone.zones tr then some (exchanged (Zone.zones tr) d z tr % 2 ^ 64) else none

/-- Something that is not counted. -/
theorem Inv.idle {s : State} {tr : List (Op × Option Answer)} (h : Inv s tr) (o : Op) (ho : ∀ md, o ≠ .connect md) (conns : List Conn)
    (hc : conns.map Conn.counters = s.conns.map Conn.counters) : Inv { s with conns := conns } (tr ++ [(o, none)]) := by
  have hz : Zone.zones (tr ++ [(o, none)]) = Zone.zones tr := by
    rw [zones_append]
    cases o with
    | connect md => exact absurd rfl (ho md)
    | _ => exact List.append_nil _
  have he : ∀ d z zs, exchanged zs d z (tr ++ [(o, none)]) = exchanged zs d z tr := by
    intro d z zs
    rw [exchanged_append]
    cases o <;> rfl
  refine ⟨by rw [hz]; exact hc.trans h.zones, ?_, ?_⟩
  · intro i p a r hm
    rw [hz]
    rcases List.mem_append.1 hm with hm | hm
    · exact h.polls i p a r hm
    · simp at hm
  · intro d z
    rw [hz, he]
    exact h.family d z

theorem set_counters (conns : List Conn) (i : Nat) (c : Counters) (p q : Phase) (h : conns[i]? = some ⟨c, p⟩) :
    (conns.set i ⟨c, q⟩).map Conn.counters = conns.map Conn.counters := by
  refine List.ext_getElem? fun j => ?_
  rw [List.getElem?_map, List.getElem?_map]
  by_cases hj : i = j
  · subst hj
    have hlt := (List.getElem?_eq_some_iff.1 h).1
    rw [List.getElem?_set_self hlt, h]
    rfl
  · rw [List.getElem?_set_ne hj]

theorem inv (ops : List Op) : Inv (run init ops).1 (run init ops).2 := by
  induction ops using Verif.snoc_induction with
  | nil => exact ⟨rfl, nofun, fun d z => by simp [run, init, zones, Assoc.lookup]⟩
  | snoc ops o ih =>
    rw [run_snoc]
    generalize (run init ops).1 = s at ih ⊢
    generalize (run init ops).2 = tr at ih ⊢
    have same : ∀ (o : Op), (∀ md, o ≠ .connect md) → Inv s (tr ++ [(o, none)]) := fun o ho => ih.idle o ho s.conns rfl
    cases o with
    | connect md =>
      have hz : Zone.zones (tr ++ [(.connect md, none)]) = Zone.zones tr ++ [locality md] := by rw [zones_append]; rfl
      refine ⟨?_, ?_, ?_⟩
      · show (s.conns ++ _).map Conn.counters = (Zone.zones (tr ++ [(.connect md, none)])).map zoneLabels
        rw [hz, List.map_append, List.map_append, ih.zones]
        rfl
      · intro i p a r hm
        show i < (Zone.zones (tr ++ [(.connect md, none)])).length
        rw [hz, List.length_append]
        rcases List.mem_append.1 hm with hm | hm
        · exact Nat.lt_add_right _ (ih.polls i p a r hm)
        · simp at hm
      · intro d z
        have hf := ih.family d z
        show Assoc.lookup (d, z) ((s.family.create (.recv, locality md)).create (.send, locality md)) =
          if z ∈ Zone.zones (tr ++ [(.connect md, none)]) then
            some (exchanged (Zone.zones (tr ++ [(.connect md, none)])) d z (tr ++ [(.connect md, none)]) % 2 ^ 64) else none
        rw [hz, exchanged_append, exchanged_later _ _ _ _ _ ih.polls, lookup_create, lookup_create, hf]
        have h0 : z ∉ Zone.zones tr → exchanged (Zone.zones tr) d z tr = 0 := by
          intro hn
          have : ∀ tr', exchanged (Zone.zones tr) d z tr' = 0 := by
            intro tr'
            induction tr' with
            | nil => rfl
            | cons x tr' ih' =>
              obtain ⟨o, r⟩ := x
              match o, r with
              | .poll i p b, some r =>
                have : (Zone.zones tr)[i]? ≠ some z := fun h => hn (List.mem_of_getElem? h)
                simp only [exchanged, ih', this, if_false]
              | .poll i p b, none => exact ih'
              | .connect md, _ => exact ih'
              | .connected i, _ => exact ih'
              | .failed i, _ => exact ih'
              | .drop i, _ => exact ih'
          exact this tr
        simp only [exchanged, Nat.add_zero]
        by_cases hzz : z = locality md
        · subst hzz
          by_cases hm : locality md ∈ Zone.zones tr
          · cases d <;> simp [hm]
          · cases d <;> simp [hm, h0 hm]
        · cases d <;> simp [hzz]
    | connected i =>
      simp only [step]
      split
      · rename_i c h
        exact ih.idle _ (fun _ h => Op.noConfusion h) _ (set_counters _ _ _ _ _ h)
      · exact same _ (fun _ h => Op.noConfusion h)
    | failed i =>
      simp only [step]
      split
      · rename_i c h
        exact ih.idle _ (fun _ h => Op.noConfusion h) _ (set_counters _ _ _ _ _ h)
      · exact same _ (fun _ h => Op.noConfusion h)
    | drop i =>
      simp only [step]
      split
      · rename_i c h
        exact ih.idle _ (fun _ h => Op.noConfusion h) _ (set_counters _ _ _ _ _ h)
      · exact same _ (fun _ h => Op.noConfusion h)
    | poll i p a =>
      simp only [step]
      split
      · rename_i c h
        have hz : Zone.zones (tr ++ [(.poll i p a, some a)]) = Zone.zones tr := by
          rw [zones_append]; exact List.append_nil _
        obtain ⟨y, hy, rfl⟩ : ∃ y, (Zone.zones tr)[i]? = some y ∧ c = zoneLabels y := by
          have h1 : (s.conns.map Conn.counters)[i]? = some c := by rw [List.getElem?_map, h]; rfl
          rw [ih.zones, List.getElem?_map] at h1
          obtain ⟨y, h2, h3⟩ := Option.map_eq_some_iff.1 h1
          exact ⟨y, h2, h3.symm⟩
        refine ⟨by rw [hz]; exact ih.zones, ?_, ?_⟩
        · intro k q b r hm
          rw [hz]
          rcases List.mem_append.1 hm with hm | hm
          · exact ih.polls k q b r hm
          · have : k = i := by simp at hm; exact hm.1.1
            subst this
            exact (List.getElem?_eq_some_iff.1 hy).1
        · intro d z
          have hf := ih.family d z
          rw [hz, exchanged_append]
          have key : Assoc.lookup (d, z) (sensorPoll s.family (zoneLabels y) p a) =
              if y = z then some (add64 ((Assoc.lookup (d, z) s.family).getD 0) (moved p a d)) else Assoc.lookup (d, z) s.family := by
            have hy' := ih.family d y
            have hmem : y ∈ Zone.zones tr := List.mem_of_getElem? hy
            rw [if_pos hmem] at hy'
            have hid : ∀ (e : y = z), some (add64 ((Assoc.lookup (d, z) s.family).getD 0) 0) = Assoc.lookup (d, z) s.family := by
              intro e; subst e; rw [hy']; simp [add64]
            unfold sensorPoll zoneLabels
            cases p <;> cases a <;> cases d <;>
              simp only [moved, lookup_inc, Prod.mk.injEq, true_and, false_and, reduceCtorEq, if_false]
            all_goals
              by_cases e : y = z
              · simp only [e, if_true]
                try exact (hid e).symm
              · simp [e, Ne.symm e]
          rw [key, hf]
          by_cases e : y = z
          · subst e
            have hmem : y ∈ Zone.zones tr := List.mem_of_getElem? hy
            simp [exchanged, hy, hmem, add64]
          · simp [exchanged, hy, e]
      · exact same _ (fun _ h => Op.noConfusion h)

/-- C126. After any history of connections to endpoints, the metric of the transfer cost has a series for each direction and each zone of an endpoint that a
connection was called for, and no others, and each is the number of bytes that the users of that zone's connections received or sent, modulo 2^64:
whatever fails, is written only in part, is flushed, or comes after an error. -/
theorem C126_counted (ops : List Op) (d : Dir) (z : Metrics.Zone) :
    Assoc.lookup (d, z) (run init ops).1.family =
      if z ∈ zones (run init ops).2 then some (exchanged (zones (run init ops).2) d z (run init ops).2 % 2 ^ 64) else none :=
  (inv ops).family d z

/-- C126. Counting changes nothing: a poll answers what the connection below answered. -/
theorem C126_transparent (ops : List Op) (i : Nat) (p : Poll) (a r : Answer) (h : (Op.poll i p a, some r) ∈ (run init ops).2) : r = a := by
  induction ops using Verif.snoc_induction with
  | nil => cases h
  | snoc ops o ih =>
    rw [run_snoc] at h
    rcases List.mem_append.1 h with h | h
    · exact ih h
    · simp only [List.mem_singleton, Prod.mk.injEq] at h
      obtain ⟨rfl, h⟩ := h
      simp only [step] at h
      split at h
      · exact Option.some.inj h
      · cases h

/-- C126. The zone of an endpoint is that of its own labels: local if `zone_locality` is `local`, remote if it is `remote`, in any case of letters; and
unknown otherwise. -/
theorem C126_zone (parseUrl parseAuthority : Str → Option Str) (set : ApiResolve.Labels) (pb : ApiResolve.ApiWeightedAddr) (a : ApiResolve.SockAddr)
    (m : ApiResolve.Metadata) (h : ApiResolve.toAddrMeta parseUrl parseAuthority set pb = some (a, m)) :
    (locality m = .isLocal ↔ ∃ v, Assoc.lookup "zone_locality".toList pb.labels = some v ∧ Text.eqIgnoreCase v "local".toList = true) ∧
    (locality m = .remote ↔ ∃ v, Assoc.lookup "zone_locality".toList pb.labels = some v ∧ Text.eqIgnoreCase v "local".toList = false ∧
      Text.eqIgnoreCase v "remote".toList = true) := by
  have hm : m.zoneLocal = ApiResolve.zoneLocality pb.labels := by
    unfold ApiResolve.toAddrMeta at h
    split at h
    · cases h
    · cases h; rfl
  unfold locality
  rw [hm]
  unfold ApiResolve.zoneLocality
  cases Assoc.lookup "zone_locality".toList pb.labels with
  | none => simp
  | some v =>
    simp only [Option.bind_some, Option.some.injEq, exists_eq_left']
    generalize Text.eqIgnoreCase v "local".toList = x
    generalize Text.eqIgnoreCase v "remote".toList = y
    cases x <;> cases y <;> simp

/-! ## A history -/

private def md (z : Option Bool) : ApiResolve.Metadata :=
  { labels := [], hint := .unknown, taggedPort := none, identity := none, authority := none, weight := 1, http2 := .default, zoneLocal := z }

private def exOps : List Op :=
  [.connect (md (some true)), .connect (md (some false)), .connect (md none), .connected 0, .connected 1, .failed 2, .poll 0 .write (.ok 5),
   .poll 0 .read (.ok 7), .poll 1 .writeVectored (.ok 3), .poll 1 .read .pending, .poll 0 .read (.err false none), .poll 0 .read (.ok 1), .drop 0,
   .poll 0 .read (.ok 9)]

example : (run init exOps).1.family = [((.recv, .isLocal), 8), ((.send, .isLocal), 5), ((.recv, .remote), 0), ((.send, .remote), 3),
    ((.recv, .unknown), 0), ((.send, .unknown), 0)] := by
  decide

example : zones (run init exOps).2 = [.isLocal, .remote, .unknown] := rfl

example : (Op.poll 0 .read (.ok 7), some (.ok 7)) ∈ (run init exOps).2 := by
  simp [exOps, run, step, init, sensorPoll]

end Verif.Zone
