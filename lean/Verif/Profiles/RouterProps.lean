import Verif.Profiles.Props

/-!
# C68: requests take the route of the current profile
-/

namespace Verif.Profiles

abbrev Routes := List (RequestMatch × Key)

/-- The routes of the last profile that was published, and those in use: of the last profile that was published before the
inner service was last ready. -/
structure Current where
  latest : Routes
  inUse : Routes

def current (first : Routes) (ops : List Op) : Current :=
  ops.foldl (fun c o => match o with
    | .publish routes => { c with latest := routes }
    | .pollReady true => { c with inUse := c.latest }
    | .pollReady false => c) ⟨first, []⟩

theorem current_snoc (first : Routes) (ops : List Op) (o : Op) :
    current first (ops ++ [o]) = (match o with
      | .publish routes => { current first ops with latest := routes }
      | .pollReady true => { current first ops with inUse := (current first ops).latest }
      | .pollReady false => current first ops) := by
  unfold current
  rw [List.foldl_append]
  rfl

theorem run_snoc (r : Router) (ops : List Op) (o : Op) : r.run (ops ++ [o]) = (r.run ops).step o := by
  simp [Router.run, List.foldl_append]

/-! ## `build` -/

theorem build_lookup (keys : List Key) (proxies : List (Key × Nat)) (made : Nat) :
    (∀ k id, Assoc.lookup k proxies = some id → Assoc.lookup k (build keys proxies made).1 = some id) ∧
    (∀ k ∈ keys, (Assoc.lookup k (build keys proxies made).1).isSome = true) ∧
    (∀ k, (Assoc.lookup k (build keys proxies made).1).isSome = true →
      k ∈ keys ∨ (Assoc.lookup k proxies).isSome = true) ∧
    made ≤ (build keys proxies made).2 ∧
    ((∀ k id, (k, id) ∈ proxies → id < made) →
      ∀ k id, (k, id) ∈ (build keys proxies made).1 → id < (build keys proxies made).2) ∧
    (∀ e ∈ (build keys proxies made).1, e ∈ proxies ∨ e.1 ∈ keys) ∧
    ((proxies.map (·.1)).Nodup → ((build keys proxies made).1.map (·.1)).Nodup) ∧
    (((proxies.map (·.2)).Nodup ∧ ∀ k id, (k, id) ∈ proxies → id < made) →
      ((build keys proxies made).1.map (·.2)).Nodup) := by
  induction keys generalizing proxies made with
  | nil =>
    refine ⟨fun _ _ h => h, by simp, fun _ h => .inr h, Nat.le_refl _, fun h => h, fun _ h => .inl h, fun h => h, fun h => h.1⟩
  | cons x keys ih =>
    cases hx : Assoc.lookup x proxies with
    | some id =>
      obtain ⟨h1, h2, h3, h4, h5, h6, h7, h8⟩ := ih proxies made
      have hb : build (x :: keys) proxies made = build keys proxies made := by simp [build, hx]
      rw [hb]
      refine ⟨h1, ?_, ?_, h4, h5, ?_, h7, h8⟩
      · intro k hk
        rcases List.mem_cons.1 hk with rfl | hk
        · rw [h1 _ _ hx]; rfl
        · exact h2 k hk
      · intro k hk
        rcases h3 k hk with h | h
        · exact .inl (by simp [h])
        · exact .inr h
      · intro e he
        rcases h6 e he with h | h
        · exact .inl h
        · exact .inr (by simp [h])
    | none =>
      obtain ⟨h1, h2, h3, h4, h5, h6, h7, h8⟩ := ih ((x, made) :: proxies) (made + 1)
      have hb : build (x :: keys) proxies made = build keys ((x, made) :: proxies) (made + 1) := by simp [build, hx]
      rw [hb]
      have hxl : Assoc.lookup x ((x, made) :: proxies) = some made := by simp [Assoc.lookup]
      refine ⟨?_, ?_, ?_, by omega, ?_, ?_, ?_, ?_⟩
      · intro k id hk
        apply h1
        by_cases hkx : x = k
        · subst hkx; rw [hx] at hk; simp at hk
        · simp [Assoc.lookup, hkx, hk]
      · intro k hk
        rcases List.mem_cons.1 hk with rfl | hk
        · rw [h1 _ _ hxl]; rfl
        · exact h2 k hk
      · intro k hk
        rcases h3 k hk with h | h
        · exact .inl (by simp [h])
        · by_cases hkx : x = k
          · exact .inl (by simp [hkx])
          · exact .inr (by simpa [Assoc.lookup, hkx] using h)
      · intro hp
        apply h5
        intro k id hk
        rcases List.mem_cons.1 hk with h | h
        · simp only [Prod.mk.injEq] at h; omega
        · have := hp k id h; omega
      · intro e he
        rcases h6 e he with h | h
        · rcases List.mem_cons.1 h with rfl | h
          · exact .inr (by simp)
          · exact .inl h
        · exact .inr (by simp [h])
      · intro hn
        apply h7
        simp only [List.map_cons, List.nodup_cons]
        refine ⟨?_, hn⟩
        intro hm
        exact Assoc.lookup_none_iff.1 hx hm
      · intro hn
        apply h8
        refine ⟨?_, ?_⟩
        · simp only [List.map_cons, List.nodup_cons]
          refine ⟨?_, hn.1⟩
          intro hm
          obtain ⟨⟨k, id⟩, hm1, hm2⟩ := List.mem_map.1 hm
          simp only at hm2
          have := hn.2 k id hm1
          omega
        · intro k id hk
          rcases List.mem_cons.1 hk with h | h
          · simp only [Prod.mk.injEq] at h; omega
          · have := hn.2 k id h; omega

/-! ## The invariant -/

structure Inv (c : Current) (r : Router) : Prop where
  latest : r.published.getLast? = some c.latest
  seen : r.seen ≤ r.published.length
  caught : r.seen = r.published.length → r.routes = c.latest
  routes : r.routes = c.inUse
  keys : ∀ k, (Assoc.lookup k r.proxies).isSome = true ↔ k ∈ r.routes.map (·.2)
  distinct : (r.proxies.map (·.1)).Nodup
  ids : (r.proxies.map (·.2)).Nodup
  made : ∀ k id, (k, id) ∈ r.proxies → id < r.made

theorem inv_init (first : Routes) : Inv (current first []) (Router.new first) := by
  constructor <;> simp [Router.new, current, Assoc.lookup]

theorem lookup_filter (proxies : List (Key × Nat)) (f : Key → Bool) (k : Key) :
    Assoc.lookup k (proxies.filter fun e => f e.1) = if f k then Assoc.lookup k proxies else none := by
  induction proxies with
  | nil => simp [Assoc.lookup]
  | cons e l ih =>
    obtain ⟨a, v⟩ := e
    rw [List.filter_cons]
    by_cases hf : f a = true
    · simp only [hf, if_true, Assoc.lookup, ih]
      by_cases ha : a = k
      · subst ha; simp [hf]
      · simp [ha]
    · simp only [hf, Bool.false_eq_true, if_false, ih, Assoc.lookup]
      by_cases ha : a = k
      · subst ha; simp [hf]
      · simp [ha]

theorem inv_step {first : Routes} {ops : List Op} {r : Router} (h : Inv (current first ops) r) (o : Op) :
    Inv (current first (ops ++ [o])) (r.step o) := by
  rw [current_snoc]
  match o with
  | .publish routes =>
    refine ⟨?_, ?_, ?_, h.routes, h.keys, h.distinct, h.ids, h.made⟩
    · simp [Router.step]
    · have := h.seen; simp only [Router.step, List.length_append, List.length_cons, List.length_nil]; omega
    · have := h.seen
      simp only [Router.step, List.length_append, List.length_cons, List.length_nil]
      omega
  | .pollReady false => simpa [Router.step, Router.pollReady] using h
  | .pollReady true =>
    by_cases hs : r.seen < r.published.length
    · have hstep : r.step (.pollReady true) =
          { r with
            seen := r.published.length
            routes := (current first ops).latest
            proxies := (build ((current first ops).latest.map (·.2))
              (r.proxies.filter fun e => ((current first ops).latest.map (·.2)).contains e.1) r.made).1
            made := (build ((current first ops).latest.map (·.2))
              (r.proxies.filter fun e => ((current first ops).latest.map (·.2)).contains e.1) r.made).2 } := by
        simp only [Router.step, Router.pollReady, if_true, hs, h.latest, Option.getD_some]
      rw [hstep]
      obtain ⟨h1, h2, h3, h4, h5, h6, h7, h8⟩ := build_lookup ((current first ops).latest.map (·.2))
        (r.proxies.filter fun e => ((current first ops).latest.map (·.2)).contains e.1) r.made
      have hf := lookup_filter r.proxies (fun k => ((current first ops).latest.map (·.2)).contains k)
      refine ⟨h.latest, Nat.le_refl _, fun _ => rfl, rfl, ?_, ?_, ?_, ?_⟩
      · intro k
        refine ⟨fun hk => ?_, fun hk => h2 k hk⟩
        rcases h3 k hk with hk | hk
        · exact hk
        · rw [hf] at hk
          split at hk
          · rename_i hc; simpa using hc
          · simp at hk
      · exact h7 (h.distinct.sublist (List.filter_sublist.map _))
      · refine h8 ⟨h.ids.sublist (List.filter_sublist.map _), ?_⟩
        intro k id hk
        exact h.made k id (List.mem_filter.1 hk).1
      · apply h5
        intro k id hk
        exact h.made k id (List.mem_filter.1 hk).1
    · have he : r.seen = r.published.length := by have := h.seen; omega
      have hstep : r.step (.pollReady true) = r := by
        simp [Router.step, Router.pollReady, hs]
      rw [hstep]
      exact ⟨h.latest, h.seen, h.caught, h.caught he, h.keys, h.distinct, h.ids, h.made⟩

theorem inv_run (first : Routes) (ops : List Op) : Inv (current first ops) ((Router.new first).run ops) := by
  induction ops using snoc_induction with
  | nil => exact inv_init first
  | snoc ops o ih => rw [run_snoc]; exact inv_step ih o

/-! ## C68 -/

/-- Whatever profiles are published and whenever the service is polled, a request goes to the proxy of the first matching
route of the profile in use, and to the inner service if no route matches. -/
theorem C68_route_of_the_profile_in_use (first : Routes) (ops : List Op) (req : Req) :
    (∀ before m k after, (current first ops).inUse = before ++ (m, k) :: after → m.isMatch req = true →
      (∀ e ∈ before, e.1.isMatch req = false) → ∃ id, ((Router.new first).run ops).call req = .proxy k id) ∧
    ((∀ e ∈ (current first ops).inUse, e.1.isMatch req = false) → ((Router.new first).run ops).call req = .inner) := by
  have hi := inv_run first ops
  constructor
  · intro before m k after he hm hb
    have hk : routeForRequest req ((Router.new first).run ops).routes = some k := by
      rw [hi.routes]
      exact (routeForRequest_spec req _ k).2 ⟨before, m, after, he, hm, hb⟩
    have := (hi.keys k).2 (by rw [hi.routes, he]; simp)
    obtain ⟨id, hid⟩ := Option.isSome_iff_exists.1 this
    exact ⟨id, by simp [Router.call, hk, hid]⟩
  · intro h
    have hk : routeForRequest req ((Router.new first).run ops).routes = none := by
      cases hr : routeForRequest req ((Router.new first).run ops).routes with
      | none => rfl
      | some k =>
        rw [hi.routes] at hr
        obtain ⟨before, m, after, he, hm, -⟩ := (routeForRequest_spec req _ k).1 hr
        have := h (m, k) (by rw [he]; simp)
        rw [hm] at this
        simp at this
    simp [Router.call, hk]

/-- The expectation that a route's proxy exists is always met. -/
theorem C68_never_panics (first : Routes) (ops : List Op) (req : Req) :
    ((Router.new first).run ops).call req ≠ .panic := by
  have hi := inv_run first ops
  unfold Router.call
  split
  · simp
  · rename_i k hk
    obtain ⟨before, m, after, he, -⟩ := (routeForRequest_spec req _ k).1 hk
    have := (hi.keys k).2 (by rw [he]; simp)
    obtain ⟨id, hid⟩ := Option.isSome_iff_exists.1 this
    simp [hid]

/-- Each route in use has its own proxy, and no other proxies are kept. -/
theorem C68_one_proxy_per_route (first : Routes) (ops : List Op) :
    (∀ k, (∃ id, (k, id) ∈ ((Router.new first).run ops).proxies) ↔ k ∈ (current first ops).inUse.map (·.2)) ∧
    (∀ k k' id id', (k, id) ∈ ((Router.new first).run ops).proxies → (k', id') ∈ ((Router.new first).run ops).proxies →
      (k = k' ↔ id = id')) := by
  have hi := inv_run first ops
  refine ⟨?_, ?_⟩
  · intro k
    rw [← hi.routes, ← hi.keys]
    constructor
    · rintro ⟨id, h⟩
      rw [Assoc.lookup_of_mem (by exact hi.distinct) h]; rfl
    · intro h
      obtain ⟨id, hid⟩ := Option.isSome_iff_exists.1 h
      exact ⟨id, Assoc.mem_of_lookup hid⟩
  · intro k k' id id' h h'
    constructor
    · rintro rfl
      exact Assoc.unique_of_distinct (by exact hi.distinct) h h'
    · rintro rfl
      have hn := hi.ids
      generalize ((Router.new first).run ops).proxies = l at h h' hn
      induction l with
      | nil => simp at h
      | cons e l ih =>
        simp only [List.map_cons, List.nodup_cons] at hn
        rcases List.mem_cons.1 h with rfl | g
        · rcases List.mem_cons.1 h' with g' | g'
          · exact (Prod.mk.inj g').1.symm
          · exact absurd (List.mem_map.2 ⟨_, g', rfl⟩) hn.1
        · rcases List.mem_cons.1 h' with rfl | g'
          · exact absurd (List.mem_map.2 ⟨_, g, rfl⟩) hn.1
          · exact ih g g' hn.2

theorem lookup_kept {first : Routes} {ops : List Op} (o : Op) {k : Key} {id : Nat}
    (h : Assoc.lookup k ((Router.new first).run ops).proxies = some id)
    (hk : k ∈ (current first (ops ++ [o])).inUse.map (·.2)) :
    Assoc.lookup k ((Router.new first).run (ops ++ [o])).proxies = some id := by
  have hi := inv_run first ops
  rw [current_snoc] at hk
  rw [run_snoc]
  match o with
  | .publish routes => exact h
  | .pollReady false => simpa [Router.step, Router.pollReady] using h
  | .pollReady true =>
    simp only [Router.step, Router.pollReady, if_true]
    split
    · simp only [hi.latest, Option.getD_some]
      refine (build_lookup _ _ _).1 k id ?_
      rw [lookup_filter _ (fun k => ((current first ops).latest.map (·.2)).contains k)]
      rw [if_pos (by simpa using hk)]
      exact h
    · exact h

/-- As long as a route stays in the profiles in use it keeps its proxy, and with it the state of its limits and budgets. -/
theorem C68_proxies_are_kept (first : Routes) (ops more : List Op) (k : Key) (id id' : Nat) (req req' : Req)
    (h : ((Router.new first).run ops).call req = .proxy k id)
    (hk : ∀ pre, pre <+: more → k ∈ (current first (ops ++ pre)).inUse.map (·.2))
    (h' : ((Router.new first).run (ops ++ more)).call req' = .proxy k id') : id' = id := by
  have look : ∀ (r : Router) (req : Req) (id : Nat), r.call req = .proxy k id → Assoc.lookup k r.proxies = some id := by
    intro r req id hc
    unfold Router.call at hc
    split at hc
    · simp at hc
    · split at hc
      · rename_i k' _ i hl
        simp only [Sent.proxy.injEq] at hc
        obtain ⟨rfl, rfl⟩ := hc
        exact hl
      · simp at hc
  have h1 := look _ _ _ h
  have h2 := look _ _ _ h'
  have : Assoc.lookup k ((Router.new first).run (ops ++ more)).proxies = some id := by
    clear h h' h2
    induction more using snoc_induction with
    | nil => simpa using h1
    | snoc more o ih =>
      rw [← List.append_assoc]
      apply lookup_kept o
      · exact ih fun pre hp => hk pre (hp.trans (List.prefix_append _ _))
      · rw [List.append_assoc]; exact hk _ (List.prefix_refl _)
  rw [this] at h2
  simpa using h2.symm

/-! ### A concrete history -/

private def rt (k : Key) (path : String) : RequestMatch × Key := (.path path.toList fun s => s == path.toList, k)
private def ops1 : List Op := [.pollReady true, .publish [rt 2 "/b", rt 1 "/a"], .pollReady false, .pollReady true]

example : ((Router.new [rt 1 "/a"]).run ops1).call ⟨[], "/a".toList⟩ = .proxy 1 0 := by decide +kernel
example : ((Router.new [rt 1 "/a"]).run ops1).call ⟨[], "/b".toList⟩ = .proxy 2 1 := by decide +kernel
example : ((Router.new [rt 1 "/a"]).run (ops1.take 3)).call ⟨[], "/b".toList⟩ = .inner := by decide +kernel
example : ((Router.new [rt 1 "/a"]).run (ops1.take 1)).call ⟨[], "/a".toList⟩ = .proxy 1 0 := by decide +kernel

end Verif.Profiles
