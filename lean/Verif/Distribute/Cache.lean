import Verif.Common.Assoc
import Verif.Common.List

/-!
# C58 — the shared cache of backend services

Models `linkerd/distribute/src/cache.rs`.  A backend set (`AHashSet`) is a duplicate-free list, in the
order in which the set is iterated.  Services are numbered by the order in which they are made.
-/

namespace Verif.Distribute.Cache

open Assoc

/-- `NewBackendCache` (cache.rs:13–17): the shared map; `fresh` numbers the services made. -/
structure World where
  cache : List (Nat × Nat) := []
  fresh : Nat := 0
  deriving Repr

/-- The loop that adds the missing backends (cache.rs:76–85). -/
def addMissing : World → List Nat → World
  | w, [] => w
  | w, b :: bs =>
    if (lookup b w.cache).isSome then addMissing w bs
    else addMissing { cache := insert b w.fresh w.cache, fresh := w.fresh + 1 } bs

/-- `NewBackendCache::new_service` (cache.rs:56–91): the returned `BackendCache` is the copy of the map
after the update. -/
def World.update (w : World) (backends : List Nat) : World :=
  let w := { w with cache := w.cache.filter (fun e => backends.contains e.1) }
  if backends.length > w.cache.length then addMissing w backends else w

/-- `BackendCache::new_service` (cache.rs:113–118). `none` is the panic `target must be in cache`. -/
def get (snapshot : List (Nat × Nat)) (key : Nat) : Option Nat := lookup key snapshot

/-- The cache after a sequence of updates. -/
def after (us : List (List Nat)) : World := us.foldl World.update {}

structure Inv (w : World) : Prop where
  distinct : Distinct w.cache
  lt : ∀ k s, (k, s) ∈ w.cache → s < w.fresh

theorem addMissing_spec (bs : List Nat) (w : World) (h : Inv w) :
    Inv (addMissing w bs) ∧ w.fresh ≤ (addMissing w bs).fresh ∧
    (∀ k s, lookup k w.cache = some s → lookup k (addMissing w bs).cache = some s) ∧
    (∀ k, lookup k w.cache = none → k ∈ bs → ∃ s, lookup k (addMissing w bs).cache = some s ∧ w.fresh ≤ s) ∧
    (∀ k, lookup k w.cache = none → k ∉ bs → lookup k (addMissing w bs).cache = none) := by
  induction bs generalizing w with
  | nil => exact ⟨h, Nat.le_refl _, fun k s h => h, by simp, fun k h _ => h⟩
  | cons b bs ih =>
    simp only [addMissing]
    cases hb : lookup b w.cache with
    | some s =>
      simp only [Option.isSome_some, if_true]
      obtain ⟨h1, h2, h3, h4, h5⟩ := ih w h
      refine ⟨h1, h2, h3, ?_, ?_⟩
      · intro k hk hm
        rcases List.mem_cons.1 hm with rfl | hm
        · rw [hb] at hk; cases hk
        · exact h4 k hk hm
      · intro k hk hm; exact h5 k hk (fun hm' => hm (by simp [hm']))
    | none =>
      simp only [Option.isSome_none, Bool.false_eq_true, if_false]
      have hi : Inv { cache := insert b w.fresh w.cache, fresh := w.fresh + 1 } := by
        refine ⟨distinct_insert h.distinct, ?_⟩
        intro k s hs
        simp only [mem_insert, Prod.mk.injEq] at hs
        rcases hs with ⟨-, rfl⟩ | ⟨hs, -⟩
        · simp
        · have := h.lt k s hs; simp; omega
      obtain ⟨h1, h2, h3, h4, h5⟩ := ih _ hi
      simp only [lookup_insert] at h2 h3 h4 h5
      refine ⟨h1, by omega, ?_, ?_, ?_⟩
      · intro k s hk
        apply h3
        rw [if_neg (by rintro rfl; rw [hb] at hk; cases hk)]; exact hk
      · intro k hk hm
        by_cases hkb : k = b
        · exact ⟨w.fresh, h3 k w.fresh (by rw [if_pos hkb]), Nat.le_refl _⟩
        · rcases List.mem_cons.1 hm with h | hm
          · exact absurd h hkb
          · obtain ⟨s, hs, hle⟩ := h4 k (by rw [if_neg hkb]; exact hk) hm
            exact ⟨s, hs, by omega⟩
      · intro k hk hm
        exact h5 k (by rw [if_neg (fun e => hm (by simp [e]))]; exact hk) (fun hm' => hm (by simp [hm']))

theorem lookup_filter (p : Nat → Bool) (l : List (Nat × Nat)) (k : Nat) :
    lookup k (l.filter (fun e => p e.1)) = if p k then lookup k l else none := by
  induction l with
  | nil => simp [lookup]
  | cons e l ih =>
    obtain ⟨j, v⟩ := e
    rw [List.filter_cons]
    by_cases hj : p j = true
    · rw [if_pos hj]
      simp only [lookup]
      by_cases hjk : j = k
      · subst hjk; simp [hj]
      · rw [if_neg hjk, if_neg hjk, ih]
    · rw [if_neg hj, ih]
      simp only [lookup]
      by_cases hjk : j = k
      · subst hjk; simp [hj]
      · rw [if_neg hjk]

theorem filter_inv {w : World} (h : Inv w) (p : Nat × Nat → Bool) : Inv { w with cache := w.cache.filter p } := by
  refine ⟨h.distinct.sublist (List.filter_sublist.map _), ?_⟩
  intro k s hs
  exact h.lt k s (List.mem_filter.1 hs).1

/-- What one update does. -/
theorem update_spec (w : World) (h : Inv w) (bs : List Nat) (hn : bs.Nodup) :
    Inv (w.update bs) ∧ w.fresh ≤ (w.update bs).fresh ∧
    (∀ k, k ∉ bs → get (w.update bs).cache k = none) ∧
    (∀ k ∈ bs, ∃ s, get (w.update bs).cache k = some s ∧ (get w.cache k = some s ∨ (get w.cache k = none ∧ w.fresh ≤ s))) := by
  have hf := filter_inv h (fun e => bs.contains e.1)
  have hlook : ∀ k, lookup k (w.cache.filter (fun e => bs.contains e.1)) = if bs.contains k then lookup k w.cache else none :=
    fun k => lookup_filter (fun k => bs.contains k) w.cache k
  unfold World.update
  simp only
  by_cases hlen : bs.length > (w.cache.filter (fun e => bs.contains e.1)).length
  · rw [if_pos hlen]
    obtain ⟨h1, h2, h3, h4, h5⟩ := addMissing_spec bs _ hf
    simp only [hlook] at h2 h3 h4 h5
    refine ⟨h1, h2, ?_, ?_⟩
    · intro k hk
      exact h5 k (by simp [hk]) hk
    · intro k hk
      have hc : bs.contains k = true := by simpa using hk
      cases hl : lookup k w.cache with
      | some s => exact ⟨s, h3 k s (by rw [if_pos hc]; exact hl), .inl hl⟩
      | none =>
        obtain ⟨s, hs, hle⟩ := h4 k (by rw [if_pos hc]; exact hl) hk
        exact ⟨s, hs, .inr ⟨hl, hle⟩⟩
  · rw [if_neg hlen]
    refine ⟨hf, Nat.le_refl _, ?_, ?_⟩
    · intro k hk; simp only [get, hlook]; simp [hk]
    · intro k hk
      have hc : bs.contains k = true := by simpa using hk
      -- the retained keys are duplicate-free, contained in `bs`, and at least as many
      have hin : k ∈ (w.cache.filter (fun e => bs.contains e.1)).map Prod.fst := by
        apply Decidable.byContradiction
        intro hni
        have hsub : ∀ x ∈ (w.cache.filter (fun e => bs.contains e.1)).map Prod.fst, x ∈ bs.erase k := by
          intro x hx
          obtain ⟨e, he, rfl⟩ := List.mem_map.1 hx
          have : e.1 ∈ bs := by simpa using (List.mem_filter.1 he).2
          have hne : e.1 ≠ k := by intro h; rw [h] at hx; exact hni hx
          exact (List.mem_erase_of_ne hne).2 this
        have h1 := List.Nodup.length_le_of_subset hf.distinct hsub
        rw [List.length_erase_of_mem hk] at h1
        simp only [List.length_map] at h1
        have := List.length_pos_of_mem hk
        omega
      cases hl : lookup k w.cache with
      | some s => exact ⟨s, by simp only [get, hlook]; rw [if_pos hc]; exact hl, .inl hl⟩
      | none =>
        have : lookup k (w.cache.filter (fun e => bs.contains e.1)) = none := by rw [hlook, if_pos hc]; exact hl
        exact absurd hin (lookup_none_iff.1 this)

theorem after_snoc (us : List (List Nat)) (bs : List Nat) : after (us ++ [bs]) = (after us).update bs := by
  simp [after, List.foldl_append]

theorem after_inv (us : List (List Nat)) (hn : ∀ bs ∈ us, bs.Nodup) : Inv (after us) := by
  induction us using snoc_induction with
  | nil => exact ⟨by simp [after, Distinct], by simp [after]⟩
  | snoc us bs ih =>
    rw [after_snoc]
    exact (update_spec _ (ih (fun b hb => hn b (by simp [hb]))) bs (hn bs (by simp))).1

/-- **C58.** After any sequence of updates the cache holds exactly the backends of the last one:
looking up one of them does not panic. -/
theorem C58_cache_holds_exactly_the_backends (us : List (List Nat)) (bs : List Nat) (hn : ∀ b ∈ us, b.Nodup) (hb : bs.Nodup) (k : Nat) :
    (get (after (us ++ [bs])).cache k).isSome ↔ k ∈ bs := by
  rw [after_snoc]
  obtain ⟨-, -, h3, h4⟩ := update_spec _ (after_inv us hn) bs hb
  constructor
  · intro h
    apply Decidable.byContradiction
    intro hk; rw [h3 k hk] at h; cases h
  · intro h; obtain ⟨s, hs, -⟩ := h4 k h; rw [hs]; rfl

/-- **C58.** A backend that stays in the set from one update to the next keeps its service; one that is
new, or comes back after an absence, gets a service that no earlier backend had. -/
theorem C58_kept_backends_keep_their_service (us : List (List Nat)) (bs : List Nat) (hn : ∀ b ∈ us, b.Nodup) (hb : bs.Nodup)
    (k : Nat) (hk : k ∈ bs) :
    (∀ s, get (after us).cache k = some s → get (after (us ++ [bs])).cache k = some s) ∧
    (get (after us).cache k = none → ∀ s, get (after (us ++ [bs])).cache k = some s →
      ∀ us' us'' : List (List Nat), us = us' ++ us'' → ∀ j, get (after us').cache j ≠ some s) := by
  have hi := after_inv us hn
  obtain ⟨-, -, -, h4⟩ := update_spec _ hi bs hb
  rw [after_snoc]
  obtain ⟨s, hs, h⟩ := h4 k hk
  refine ⟨?_, ?_⟩
  · intro s' hs'
    rcases h with h | ⟨h, -⟩
    · rw [hs'] at h; cases h; exact hs
    · rw [hs'] at h; cases h
  · intro hnone s' hs' us' us'' hus j hj
    rw [hs] at hs'; cases hs'
    rcases h with h | ⟨-, hle⟩
    · rw [hnone] at h; cases h
    · subst hus
      have hi' := after_inv us' (fun b hb => hn b (by simp [hb]))
      have hlt := hi'.lt j s (mem_of_lookup hj)
      have hmono : (after us').fresh ≤ (after (us' ++ us'')).fresh := by
        clear h4 hs hnone hle hi
        induction us'' using snoc_induction with
        | nil => simp
        | snoc us'' b ih =>
          have hn' : ∀ x ∈ us' ++ us'', x.Nodup := fun x hx => hn x (by simp at hx ⊢; rcases hx with h | h <;> simp [h])
          rw [← List.append_assoc, after_snoc]
          exact Nat.le_trans (ih hn') (update_spec _ (after_inv _ hn') b (hn b (by simp))).2.1
      omega

example : get (after [[1, 2, 3], [2, 3, 4]]).cache 2 = some 1 ∧ get (after [[1, 2, 3], [2, 3, 4], [1, 4]]).cache 1 = some 4 := by
  decide +kernel

end Verif.Distribute.Cache
