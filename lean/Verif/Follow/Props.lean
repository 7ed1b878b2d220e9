import Verif.Follow.Model

/-!
# C77: services follow what is published

`Chain.through` says what the tasks make of one value; a service should use that, of the latest value.
-/

namespace Verif.Follow

variable {V : Type}

namespace Spec

/-- The values that the source's sender sends, until it goes away. -/
def sent : List (Op V) → List V
  | [] => []
  | .publish v :: ops => v :: sent ops
  | .close :: _ => []
  | _ :: ops => sent ops

/-- No task panics on this value, as far as it gets. -/
def Harmless (c : Chain V) (v : V) : Prop := ∀ k w, k < c.length → c.through k v = some w → c.make k w ≠ .panic

/-- Nothing more is published, and the source's sender stays. -/
def Quiet (ops : List (Op V)) : Prop := ∀ o ∈ ops, o ≠ .close ∧ ∀ v, o ≠ .publish v

end Spec

open Spec

theorem through_succ (c : Chain V) (k : Nat) (v x : V) :
    c.through (k + 1) v = some x ↔ ∃ w, c.through k v = some w ∧ c.make k w = .made x := by
  simp only [Chain.through]
  cases c.through k v with
  | none => simp
  | some w =>
    simp only [Option.some.injEq, exists_eq_left']
    cases c.make k w <;> simp

theorem through_le (c : Chain V) {j k : Nat} (v : V) (h : j ≤ k) (hk : (c.through k v).isSome = true) :
    (c.through j v).isSome = true := by
  induction h with
  | refl => exact hk
  | step h ih =>
    obtain ⟨x, hx⟩ := Option.isSome_iff_exists.1 hk
    obtain ⟨w, hw, -⟩ := (through_succ c _ v x).1 hx
    exact ih (by simp [hw])

theorem upd_same {α : Type} (f : Nat → α) (k : Nat) (x : α) : upd f k x k = x := by simp [upd]

theorem upd_ne {α : Type} (f : Nat → α) {j k : Nat} (x : α) (h : j ≠ k) : upd f k x j = f j := by simp [upd, h]

/-! ## Where values come from -/

/-- Each watch and each service holds what the chain makes of a published value; `g`, `h` say of which. -/
structure Inv (c : Chain V) (pub : List V) (s : State V) (g h : Nat → Nat) : Prop where
  latest : g 0 + 1 = pub.length
  val : ∀ k, k ≤ c.length → ∃ v, pub[g k]? = some v ∧ c.through k v = some (s.watches k).value
  mono : ∀ k, k < c.length → g (k + 1) ≤ g k
  svc : ∀ i x, s.svcs i = some x → ∃ v, pub[h i]? = some v ∧ c.through c.length v = some x.inner ∧ h i ≤ g c.length

theorem start_inv (c : Chain V) (v : V) (s : State V) (h : c.start v = some s) :
    Inv c [v] s (fun _ => 0) (fun _ => 0) ∧ (∀ k, k ≤ c.length → (s.watches k).closed = false) := by
  unfold Chain.start at h
  rw [Option.map_eq_some_iff] at h
  obtain ⟨last, hl, rfl⟩ := h
  refine ⟨⟨rfl, ?_, fun _ _ => Nat.le_refl _, ?_⟩, fun _ _ => rfl⟩
  · intro k hk
    have := through_le c v hk (by simp [hl])
    obtain ⟨x, hx⟩ := Option.isSome_iff_exists.1 this
    exact ⟨v, rfl, by simp [hx]⟩
  · intro i x hx
    simp only at hx
    split at hx
    · cases hx
      exact ⟨v, rfl, hl, Nat.le_refl _⟩
    · cases hx

/-- What an operation adds to the published values. -/
def newly (s : State V) : Op V → List V
  | .publish v => if (s.watches 0).closed then [] else [v]
  | _ => []

theorem g_le (c : Chain V) {pub : List V} {s : State V} {g h : Nat → Nat} (hi : Inv c pub s g h) {k : Nat} (hk : k ≤ c.length) :
    g k < pub.length := by
  obtain ⟨v, hv, -⟩ := hi.val k hk
  exact (List.getElem?_eq_some_iff.1 hv).1

theorem step_inv (c : Chain V) (pub : List V) (s : State V) (g h : Nat → Nat) (hi : Inv c pub s g h) (o : Op V) :
    ∃ g' h', Inv c (pub ++ newly s o) (c.step s o) g' h' ∧ ∀ i, (s.svcs i).isSome = true → h i ≤ h' i ∧
      ((c.step s o).svcs i).isSome = true := by
  cases o with
  | publish v =>
    simp only [Chain.step, newly]
    split
    · exact ⟨g, h, by simpa using hi, fun i hs => ⟨Nat.le_refl _, hs⟩⟩
    · have hlt : ∀ k, k ≤ c.length → g k < pub.length := fun k hk => g_le c hi hk
      refine ⟨upd g 0 pub.length, h, ⟨by simp [upd], ?_, ?_, ?_⟩, fun i hs => ⟨Nat.le_refl _, hs⟩⟩
      · intro k hk
        by_cases h0 : k = 0
        · subst h0
          exact ⟨v, by simp [upd_same], by simp [upd_same, Watch.send, Chain.through]⟩
        · obtain ⟨x, hx, ht⟩ := hi.val k hk
          refine ⟨x, ?_, by simp only [upd_ne _ _ h0]; exact ht⟩
          rw [upd_ne _ _ h0, List.getElem?_append_left (hlt k hk)]
          exact hx
      · intro k hk
        rw [upd_ne _ _ (by omega)]
        by_cases h0 : k = 0
        · subst h0
          rw [upd_same]
          exact Nat.le_of_lt (hlt 1 hk)
        · rw [upd_ne _ _ h0]
          exact hi.mono k hk
      · intro i x hx
        obtain ⟨y, hy, ht, hle⟩ := hi.svc i x hx
        have := (List.getElem?_eq_some_iff.1 hy).1
        refine ⟨y, by rw [List.getElem?_append_left this]; exact hy, ht, ?_⟩
        by_cases h0 : c.length = 0
        · rw [h0, upd_same]; exact Nat.le_of_lt this
        · rw [upd_ne _ _ h0]; exact hle
  | close =>
    refine ⟨g, h, ⟨by simpa [newly] using hi.latest, ?_, hi.mono, ?_⟩, fun i hs => ⟨Nat.le_refl _, hs⟩⟩
    · intro k hk
      obtain ⟨x, hx, ht⟩ := hi.val k hk
      refine ⟨x, by simpa [newly] using hx, ?_⟩
      simp only [Chain.step, upd]
      split
      · rename_i h0
        subst h0
        exact ht
      · exact ht
    · simp only [newly, List.append_nil]
      exact hi.svc
  | run k =>
    simp only [newly, List.append_nil, Chain.step]
    have keep : ∀ s' : State V, (∀ j, (s'.watches j).value = (s.watches j).value) → s'.svcs = s.svcs → Inv c pub s' g h := by
      intro s' hw hs
      exact ⟨hi.latest, fun j hj => by rw [hw]; exact hi.val j hj, hi.mono, fun i x hx => hi.svc i x (hs ▸ hx)⟩
    have closed : ∀ j, (upd s.watches (k + 1) (s.watches (k + 1)).close j).value = (s.watches j).value := by
      intro j
      by_cases hj : j = k + 1
      · subst hj; rw [upd_same]; rfl
      · rw [upd_ne _ _ hj]
    unfold Chain.run
    simp only
    by_cases hk : k < c.length ∧ (s.watches (k + 1)).closed = false
    · rw [if_pos hk]
      by_cases hsn : s.seen k ≠ (s.watches k).version
      · rw [if_pos hsn]
        obtain ⟨v, hv, ht⟩ := hi.val k (by omega)
        cases hm : c.make k (s.watches k).value with
        | skip => exact ⟨g, h, keep _ (fun _ => rfl) rfl, fun i hs => ⟨Nat.le_refl _, hs⟩⟩
        | panic => exact ⟨g, h, keep _ closed rfl, fun i hs => ⟨Nat.le_refl _, hs⟩⟩
        | made w =>
          have hg : ∀ j, j ≤ c.length → g j ≤ upd g (k + 1) (g k) j := by
            intro j _
            by_cases hj : j = k + 1
            · subst hj; rw [upd_same]; exact hi.mono k hk.1
            · rw [upd_ne _ _ hj]; exact Nat.le_refl _
          refine ⟨upd g (k + 1) (g k), h, ⟨by rw [upd_ne _ _ (by omega)]; exact hi.latest, ?_, ?_, ?_⟩,
            fun i hs => ⟨Nat.le_refl _, hs⟩⟩
          · intro j hj
            by_cases he : j = k + 1
            · subst he
              refine ⟨v, by rw [upd_same]; exact hv, ?_⟩
              simp only [upd_same, Watch.send]
              exact (through_succ c k v w).2 ⟨_, ht, hm⟩
            · obtain ⟨x, hx, ht'⟩ := hi.val j hj
              exact ⟨x, by rw [upd_ne _ _ he]; exact hx, by simp only [upd_ne _ _ he]; exact ht'⟩
          · intro j hj
            by_cases he : j = k
            · subst he
              rw [upd_same, upd_ne _ _ (by omega)]
              exact Nat.le_refl _
            · rw [upd_ne _ _ (by omega)]
              exact Nat.le_trans (hi.mono j hj) (hg j (by omega))
          · intro i x hx
            obtain ⟨y, hy, ht', hle⟩ := hi.svc i x hx
            exact ⟨y, hy, ht', Nat.le_trans hle (hg _ (Nat.le_refl _))⟩
      · rw [if_neg hsn]
        split
        · exact ⟨g, h, keep _ closed rfl, fun i hs => ⟨Nat.le_refl _, hs⟩⟩
        · exact ⟨g, h, hi, fun i hs => ⟨Nat.le_refl _, hs⟩⟩
    · rw [if_neg hk]
      exact ⟨g, h, hi, fun i hs => ⟨Nat.le_refl _, hs⟩⟩
  | poll i =>
    simp only [newly, List.append_nil, Chain.step]
    cases hs : s.svcs i with
    | none =>
      refine ⟨g, h, ⟨hi.latest, hi.val, hi.mono, ?_⟩, fun j hj => ⟨Nat.le_refl _, ?_⟩⟩
      · intro j x hx
        by_cases e : j = i
        · subst e; simp [upd_same] at hx
        · simp only [upd_ne _ _ e] at hx; exact hi.svc j x hx
      · by_cases e : j = i
        · subst e; simp [hs] at hj
        · rw [upd_ne _ _ e]; exact hj
    | some y =>
      obtain ⟨v, hv, ht, hle⟩ := hi.svc i y hs
      have some' : ∀ j, (s.svcs j).isSome = true →
          (upd s.svcs i (Option.map (Svc.poll (s.watches c.length)) (some y)) j).isSome = true := by
        intro j hj
        by_cases e : j = i
        · subst e; simp [upd_same]
        · rw [upd_ne _ _ e]; exact hj
      by_cases hp : (s.watches c.length).closed = false ∧ y.seen ≠ (s.watches c.length).version
      · refine ⟨g, upd h i (g c.length), ⟨hi.latest, hi.val, hi.mono, ?_⟩, fun j hj => ⟨?_, some' j hj⟩⟩
        · intro j x hx
          by_cases e : j = i
          · subst e
            simp only [upd_same, Option.map_some, Option.some.injEq, Svc.poll, if_pos hp] at hx
            subst hx
            obtain ⟨w, hw, ht'⟩ := hi.val c.length (Nat.le_refl _)
            exact ⟨w, by rw [upd_same]; exact hw, ht', by rw [upd_same]; exact Nat.le_refl _⟩
          · simp only [upd_ne _ _ e] at hx ⊢
            exact hi.svc j x hx
        · by_cases e : j = i
          · subst e; rw [upd_same]; exact hle
          · rw [upd_ne _ _ e]; exact Nat.le_refl _
      · refine ⟨g, h, ⟨hi.latest, hi.val, hi.mono, ?_⟩, fun j hj => ⟨Nat.le_refl _, some' j hj⟩⟩
        intro j x hx
        by_cases e : j = i
        · subst e
          simp only [upd_same, Option.map_some, Option.some.injEq, Svc.poll, if_neg hp] at hx
          subst hx
          exact ⟨v, hv, ht, hle⟩
        · simp only [upd_ne _ _ e] at hx
          exact hi.svc j x hx
  | clone i j =>
    simp only [newly, List.append_nil, Chain.step]
    split
    · exact ⟨g, h, hi, fun i hs => ⟨Nat.le_refl _, hs⟩⟩
    · rename_i hj
      refine ⟨g, upd h j (h i), ⟨hi.latest, hi.val, hi.mono, ?_⟩, fun l hl => ?_⟩
      · intro l x hx
        by_cases e : l = j
        · subst e
          simp only [upd_same] at hx ⊢
          exact hi.svc i x hx
        · simp only [upd_ne _ _ e] at hx ⊢
          exact hi.svc l x hx
      · have e : l ≠ j := by rintro rfl; exact hj hl
        rw [upd_ne _ _ e]
        refine ⟨Nat.le_refl _, ?_⟩
        simp only [upd_ne _ _ e]
        exact hl

theorem step_closed (c : Chain V) (s : State V) (o : Op V) :
    ((c.step s o).watches 0).closed = ((s.watches 0).closed || o matches .close) := by
  cases o with
  | publish v =>
    simp only [Chain.step]
    split
    · simp
    · simp [upd_same, Watch.send]
  | close => simp [Chain.step, upd_same, Watch.close]
  | run k =>
    simp only [Chain.step, Chain.run]
    repeat' split
    all_goals simp [upd]
  | poll i => simp [Chain.step]
  | clone i j => simp only [Chain.step]; split <;> simp

theorem exec_inv (c : Chain V) (ops : List (Op V)) : ∀ (pub : List V) (s : State V) (g h : Nat → Nat), Inv c pub s g h →
    ∃ g' h', Inv c (pub ++ if (s.watches 0).closed then [] else sent ops) (c.exec s ops) g' h' ∧
      ∀ i, (s.svcs i).isSome = true → h i ≤ h' i := by
  induction ops with
  | nil =>
    intro pub s g h hi
    exact ⟨g, h, by simpa [sent, Chain.exec] using hi, fun _ _ => Nat.le_refl _⟩
  | cons o ops ih =>
    intro pub s g h hi
    obtain ⟨g1, h1, hi1, hm⟩ := step_inv c pub s g h hi o
    obtain ⟨g2, h2, hi2, hm2⟩ := ih _ _ g1 h1 hi1
    refine ⟨g2, h2, ?_, fun i hs => Nat.le_trans (hm i hs).1 (hm2 i (hm i hs).2)⟩
    have : (newly s o ++ if ((c.step s o).watches 0).closed then [] else sent ops) =
        if (s.watches 0).closed then [] else sent (o :: ops) := by
      rw [step_closed]
      cases hc : (s.watches 0).closed <;> cases o <;> simp [newly, sent, hc]
    rw [List.append_assoc, this] at hi2
    exact hi2

theorem exec_append (c : Chain V) (s : State V) (a b : List (Op V)) : c.exec s (a ++ b) = c.exec (c.exec s a) b :=
  List.foldl_append

theorem sent_append (c : Chain V) (later ops : List (Op V)) : ∀ s : State V,
    (if (s.watches 0).closed then [] else sent (ops ++ later)) =
      (if (s.watches 0).closed then [] else sent ops) ++
        if ((c.exec s ops).watches 0).closed then [] else sent later := by
  induction ops with
  | nil => intro s; cases h : (s.watches 0).closed <;> simp [sent, Chain.exec, h]
  | cons o ops ih =>
    intro s
    have h := ih (c.step s o)
    rw [step_closed] at h
    have e : c.exec s (o :: ops) = c.exec (c.step s o) ops := rfl
    rw [e]
    cases hc : (s.watches 0).closed with
    | true =>
      simp only [hc, Bool.true_or, if_true, List.nil_append] at h ⊢
      exact h
    | false =>
      cases o <;> simp only [hc, Bool.or_false, Bool.or_true, Bool.false_eq_true, if_true, if_false, List.nil_append, sent,
        List.cons_append] at h ⊢ <;> first | exact h | (rw [h]) | skip

/-- A service uses what the tasks make of a published value, and never goes back to an earlier one: whatever the order in which
tasks run, values are published, and services are polled and cloned. -/
theorem C77_uses_published_values_in_order (c : Chain V) (v0 : V) (s : State V) (hs : c.start v0 = some s)
    (ops later : List (Op V)) (i : Nat) (x y : V) (hx : (c.exec s ops).using i = some x)
    (hy : (c.exec s (ops ++ later)).using i = some y) :
    ∃ (p q : Nat) (a b : V), p ≤ q ∧ (v0 :: sent ops)[p]? = some a ∧ c.through c.length a = some x ∧
      (v0 :: sent (ops ++ later))[q]? = some b ∧ c.through c.length b = some y := by
  obtain ⟨hi, ho⟩ := start_inv c v0 s hs
  have hc : (s.watches 0).closed = false := ho 0 (Nat.zero_le _)
  obtain ⟨g1, h1, hi1, -⟩ := exec_inv c ops _ s _ _ hi
  obtain ⟨g2, h2, hi2, hm⟩ := exec_inv c later _ _ g1 h1 hi1
  rw [← exec_append] at hi2
  simp only [hc, Bool.false_eq_true, if_false, List.singleton_append] at hi1 hi2
  simp only [State.using, Option.map_eq_some_iff] at hx hy
  obtain ⟨sx, hsx, rfl⟩ := hx
  obtain ⟨sy, hsy, rfl⟩ := hy
  obtain ⟨a, ha, hta, -⟩ := hi1.svc i sx hsx
  obtain ⟨b, hb, htb, -⟩ := hi2.svc i sy hsy
  refine ⟨h1 i, h2 i, a, b, hm i (by simp [hsx]), ha, hta, ?_, htb⟩
  have := sent_append c later ops s
  simp only [hc, Bool.false_eq_true, if_false] at this
  rw [this]
  exact hb

/-! ## Catching up -/

/-- What a task or a service has seen is no newer than what there is; what it has seen, it has used. -/
structure Sync (c : Chain V) (s : State V) : Prop where
  seen_le : ∀ k, k < c.length → s.seen k ≤ (s.watches k).version
  used : ∀ k, k < c.length → s.seen k = (s.watches k).version → (s.watches (k + 1)).closed = false →
    ∀ w, c.make k (s.watches k).value = .made w → (s.watches (k + 1)).value = w
  svc : ∀ i x, s.svcs i = some x → x.seen ≤ (s.watches c.length).version ∧
    (x.seen = (s.watches c.length).version → x.inner = (s.watches c.length).value)

theorem start_sync (c : Chain V) (v : V) (s : State V) (h : c.start v = some s) : Sync c s := by
  unfold Chain.start at h
  rw [Option.map_eq_some_iff] at h
  obtain ⟨last, hl, rfl⟩ := h
  refine ⟨fun _ _ => Nat.le_refl _, ?_, ?_⟩
  · intro k hk _ _ w hw
    have hs := through_le c v (show k + 1 ≤ c.length from hk) (by simp [hl])
    obtain ⟨x, hx⟩ := Option.isSome_iff_exists.1 hs
    obtain ⟨y, hy, hm⟩ := (through_succ c k v x).1 hx
    simp only [hy, Option.getD_some] at hw
    rw [hm] at hw
    cases hw
    simp [hx]
  · intro i x hx
    simp only at hx
    split at hx
    · cases hx
      exact ⟨Nat.le_refl _, fun _ => by simp [hl]⟩
    · cases hx

theorem step_sync (c : Chain V) (s : State V) (h : Sync c s) (o : Op V) : Sync c (c.step s o) := by
  cases o with
  | publish v =>
    simp only [Chain.step]
    split
    · exact h
    · refine ⟨?_, ?_, ?_⟩
      · intro k hk
        have := h.seen_le k hk
        simp only [upd]
        split
        · rename_i h0; subst h0; simp only [Watch.send]; omega
        · exact this
      · intro k hk hv hc w hw
        have := h.seen_le k hk
        simp only [upd_ne _ _ (show k + 1 ≠ 0 by omega)] at hc ⊢
        by_cases h0 : k = 0
        · subst h0
          simp only [upd_same, Watch.send] at hv
          omega
        · simp only [upd_ne _ _ h0] at hv hw
          exact h.used k hk hv hc w hw
      · intro i x hx
        have := h.svc i x hx
        by_cases h0 : c.length = 0
        · simp only [h0] at this ⊢
          simp only [upd_same, Watch.send]
          exact ⟨by omega, fun e => by omega⟩
        · simp only [upd_ne _ _ h0]
          exact this
  | close =>
    have hv : ∀ j, (upd s.watches 0 (s.watches 0).close j).value = (s.watches j).value ∧
        (upd s.watches 0 (s.watches 0).close j).version = (s.watches j).version := by
      intro j
      by_cases hj : j = 0
      · subst hj; rw [upd_same]; exact ⟨rfl, rfl⟩
      · rw [upd_ne _ _ hj]; exact ⟨rfl, rfl⟩
    refine ⟨?_, ?_, ?_⟩
    · intro k hk; simp only [Chain.step, (hv k).2]; exact h.seen_le k hk
    · intro k hk
      simp only [Chain.step, (hv k).2, (hv k).1, (hv (k + 1)).1, upd_ne _ _ (show k + 1 ≠ 0 by omega)]
      exact h.used k hk
    · intro i x hx
      simp only [Chain.step, (hv _).2, (hv _).1]
      exact h.svc i x hx
  | run k =>
    have closed : Sync c { s with watches := upd s.watches (k + 1) (s.watches (k + 1)).close } := by
      have hv : ∀ j, (upd s.watches (k + 1) (s.watches (k + 1)).close j).value = (s.watches j).value ∧
          (upd s.watches (k + 1) (s.watches (k + 1)).close j).version = (s.watches j).version := by
        intro j
        by_cases hj : j = k + 1
        · subst hj; rw [upd_same]; exact ⟨rfl, rfl⟩
        · rw [upd_ne _ _ hj]; exact ⟨rfl, rfl⟩
      refine ⟨?_, ?_, ?_⟩
      · intro j hj; simp only [(hv j).2]; exact h.seen_le j hj
      · intro j hj
        simp only [(hv j).2, (hv j).1, (hv (j + 1)).1]
        intro hs hc
        refine h.used j hj hs ?_
        by_cases e : j = k
        · subst e; rw [upd_same] at hc; cases hc
        · rw [upd_ne _ _ (by omega)] at hc; exact hc
      · intro i x hx
        simp only [(hv _).2, (hv _).1]
        exact h.svc i x hx
    simp only [Chain.step, Chain.run]
    by_cases hk : k < c.length ∧ (s.watches (k + 1)).closed = false
    · rw [if_pos hk]
      by_cases hsn : s.seen k ≠ (s.watches k).version
      · rw [if_pos hsn]
        cases hm : c.make k (s.watches k).value with
        | skip =>
          refine ⟨?_, ?_, h.svc⟩
          · intro j hj
            by_cases e : j = k
            · subst e; simp only [upd_same]; exact Nat.le_refl _
            · simp only [upd_ne _ _ e]; exact h.seen_le j hj
          · intro j hj hs hc w hw
            by_cases e : j = k
            · subst e; simp only [hm] at hw; cases hw
            · simp only [upd_ne _ _ e] at hs; exact h.used j hj hs hc w hw
        | panic =>
          refine ⟨?_, ?_, closed.svc⟩
          · intro j hj
            by_cases e : j = k
            · subst e; simp only [upd_same, upd_ne _ _ (show j ≠ j + 1 by omega)]; exact Nat.le_refl _
            · simp only [upd_ne _ _ e]; exact closed.seen_le j hj
          · intro j hj hs hc w hw
            by_cases e : j = k
            · subst e; simp only [upd_same, Watch.close] at hc; cases hc
            · simp only [upd_ne _ _ e] at hs; exact closed.used j hj hs hc w hw
        | made v =>
          refine ⟨?_, ?_, ?_⟩
          · intro j hj
            have := h.seen_le j hj
            by_cases e : j = k
            · subst e; simp only [upd_same, upd_ne _ _ (show j ≠ j + 1 by omega)]; exact Nat.le_refl _
            · simp only [upd_ne _ _ e]
              by_cases e1 : j = k + 1
              · subst e1; simp only [upd_same, Watch.send]; omega
              · simp only [upd_ne _ _ e1]; exact this
          · intro j hj hs hc w hw
            have := h.seen_le j hj
            by_cases e : j = k
            · subst e
              simp only [upd_ne _ _ (show j ≠ j + 1 by omega)] at hw
              rw [hm] at hw
              cases hw
              simp [upd_same, Watch.send]
            · simp only [upd_ne _ _ e] at hs
              by_cases e1 : j = k + 1
              · subst e1; simp only [upd_same, Watch.send] at hs; omega
              · simp only [upd_ne _ _ e1, upd_ne _ _ (show j + 1 ≠ k + 1 by omega)] at hs hc hw ⊢
                exact h.used j hj hs hc w hw
          · intro i x hx
            have := h.svc i x hx
            by_cases e : c.length = k + 1
            · rw [e] at this ⊢
              simp only [upd_same, Watch.send]
              exact ⟨by omega, fun e => by omega⟩
            · simp only [upd_ne _ _ e]; exact this
      · rw [if_neg hsn]
        split
        · exact closed
        · exact h
    · rw [if_neg hk]; exact h
  | poll i =>
    refine ⟨h.seen_le, h.used, ?_⟩
    intro j x hx
    simp only [Chain.step] at hx ⊢
    by_cases e : j = i
    · subst e
      simp only [upd_same, Option.map_eq_some_iff] at hx
      obtain ⟨y, hy, rfl⟩ := hx
      unfold Svc.poll
      split
      · exact ⟨Nat.le_refl _, fun _ => rfl⟩
      · exact h.svc j y hy
    · simp only [upd_ne _ _ e] at hx
      exact h.svc j x hx
  | clone i j =>
    simp only [Chain.step]
    split
    · exact h
    · refine ⟨h.seen_le, h.used, ?_⟩
      intro l x hx
      by_cases e : l = j
      · subst e; simp only [upd_same] at hx; exact h.svc i x hx
      · simp only [upd_ne _ _ e] at hx; exact h.svc l x hx

theorem exec_sync (c : Chain V) (ops : List (Op V)) : ∀ s : State V, Sync c s → Sync c (c.exec s ops) := by
  induction ops with
  | nil => exact fun _ h => h
  | cons o ops ih => exact fun s h => ih _ (step_sync c s h o)

/-- All tasks go on. -/
def Open (c : Chain V) (s : State V) : Prop := ∀ k, k ≤ c.length → (s.watches k).closed = false

theorem step_open (c : Chain V) (pub : List V) (s : State V) (g h : Nat → Nat) (hi : Inv c pub s g h) (ho : Open c s)
    (hp : ∀ v ∈ pub, Harmless c v) (o : Op V) (hc : o ≠ .close) : Open c (c.step s o) := by
  intro j hj
  cases o with
  | publish v =>
    simp only [Chain.step, ho 0 (Nat.zero_le _), Bool.false_eq_true, if_false, upd]
    split
    · exact ho 0 (Nat.zero_le _)
    · exact ho j hj
  | close => exact absurd rfl hc
  | run k =>
    simp only [Chain.step, Chain.run]
    by_cases hk : k < c.length ∧ (s.watches (k + 1)).closed = false
    · rw [if_pos hk]
      by_cases hsn : s.seen k ≠ (s.watches k).version
      · rw [if_pos hsn]
        cases hm : c.make k (s.watches k).value with
        | skip => exact ho j hj
        | panic =>
          obtain ⟨v, hv, ht⟩ := hi.val k (by omega)
          exact absurd hm (hp v (List.mem_of_getElem? hv) k _ hk.1 ht)
        | made w =>
          simp only [upd]
          split
          · exact hk.2
          · exact ho j hj
      · rw [if_neg hsn, ho k (by omega)]
        exact ho j hj
    · rw [if_neg hk]; exact ho j hj
  | poll i => exact ho j hj
  | clone i l =>
    simp only [Chain.step]
    split <;> exact ho j hj

/-- The first `k` tasks have made of `v` what they make of it. -/
def Caught (c : Chain V) (v : V) (k : Nat) (s : State V) : Prop := ∀ j, j ≤ k → c.through j v = some (s.watches j).value

theorem step_caught (c : Chain V) (v : V) (k : Nat) (s : State V) (h : Caught c v k s) (o : Op V)
    (hp : ∀ w, o ≠ .publish w) : Caught c v k (c.step s o) := by
  intro j hj
  have hjv := h j hj
  cases o with
  | publish w => exact absurd rfl (hp w)
  | close =>
    simp only [Chain.step, upd]
    split
    · rename_i e; subst e; exact hjv
    · exact hjv
  | run l =>
    have closed : ∀ s' : State V, s'.watches = upd s.watches (l + 1) (s.watches (l + 1)).close →
        c.through j v = some (s'.watches j).value := by
      intro s' e
      rw [e]
      simp only [upd]
      split
      · rename_i e; subst e; exact hjv
      · exact hjv
    simp only [Chain.step, Chain.run]
    by_cases hk : l < c.length ∧ (s.watches (l + 1)).closed = false
    · rw [if_pos hk]
      by_cases hsn : s.seen l ≠ (s.watches l).version
      · rw [if_pos hsn]
        cases hm : c.make l (s.watches l).value with
        | skip => exact hjv
        | panic => exact closed _ rfl
        | made w =>
          simp only [upd]
          split
          · rename_i e
            subst e
            exact (through_succ c l v w).2 ⟨_, h l (by omega), hm⟩
          · exact hjv
      · rw [if_neg hsn]
        split
        · exact closed _ rfl
        · exact hjv
    · rw [if_neg hk]; exact hjv
  | poll i => exact hjv
  | clone i l => simp only [Chain.step]; split <;> exact hjv

theorem run_caught (c : Chain V) (v r : V) (hr : c.through c.length v = some r) (k : Nat) (hk : k < c.length) (s : State V)
    (h : Caught c v k s) (hs : Sync c s) (ho : Open c s) : Caught c v (k + 1) (c.step s (.run k)) := by
  intro j hj
  by_cases e : j = k + 1
  · subst e
    obtain ⟨x, hx⟩ := Option.isSome_iff_exists.1 (through_le c v (show k + 1 ≤ c.length from hk) (by simp [hr]))
    obtain ⟨w, hw, hm⟩ := (through_succ c k v x).1 hx
    have hkv := h k (Nat.le_refl _)
    rw [hw] at hkv
    cases hkv
    rw [hx]
    simp only [Chain.step, Chain.run, if_pos (show k < c.length ∧ (s.watches (k + 1)).closed = false from ⟨hk, ho _ hk⟩)]
    by_cases hsn : s.seen k ≠ (s.watches k).version
    · rw [if_pos hsn, hm]
      simp [upd_same, Watch.send]
    · rw [if_neg hsn, ho k (by omega)]
      exact congrArg some (hs.used k hk (Classical.not_not.1 hsn) (ho _ hk) x hm).symm
  · exact step_caught c v k s h _ (by simp) j (by omega)

/-- The conditions under which the latest value `v` makes its way. -/
structure Going (c : Chain V) (pub : List V) (v : V) (k : Nat) (s : State V) : Prop where
  inv : ∃ g h, Inv c pub s g h
  sync : Sync c s
  opn : Open c s
  caught : Caught c v k s

theorem going_step (c : Chain V) (pub : List V) (hp : ∀ v ∈ pub, Harmless c v) (v : V) (k : Nat) (s : State V)
    (hg : Going c pub v k s) (o : Op V) (ho : o ≠ .close ∧ ∀ v, o ≠ .publish v) : Going c pub v k (c.step s o) := by
  obtain ⟨⟨g, h, hi⟩, hs, hop, hc⟩ := hg
  obtain ⟨g', h', hi', -⟩ := step_inv c pub s g h hi o
  have : newly s o = [] := by
    cases o with
    | publish w => exact absurd rfl (ho.2 w)
    | _ => rfl
  rw [this, List.append_nil] at hi'
  exact ⟨⟨g', h', hi'⟩, step_sync c s hs o, step_open c pub s g h hi hop hp o ho.1, step_caught c v k s hc o ho.2⟩

theorem going_exec (c : Chain V) (pub : List V) (hp : ∀ v ∈ pub, Harmless c v) (v : V) (k : Nat) (ops : List (Op V)) :
    ∀ s : State V, Going c pub v k s → Quiet ops → Going c pub v k (c.exec s ops) := by
  induction ops with
  | nil => exact fun _ h _ => h
  | cons o ops ih =>
    exact fun s h hq => ih _ (going_step c pub hp v k s h o (hq o (by simp))) fun o ho => hq o (by simp [ho])

theorem going_sweep (c : Chain V) (pub : List V) (hp : ∀ v ∈ pub, Harmless c v) (v r : V)
    (hr : c.through c.length v = some r) (k : Nat) (hk : k ≤ c.length) :
    ∀ (ops : List (Op V)) (s : State V), Going c pub v 0 s → Quiet ops →
      ((List.range k).map Op.run).Sublist ops → Going c pub v k (c.exec s ops) := by
  induction k with
  | zero => exact fun ops s h hq _ => going_exec c pub hp v 0 ops s h hq
  | succ k ih =>
    intro ops s h hq hsub
    rw [List.range_succ, List.map_append, List.append_sublist_iff] at hsub
    obtain ⟨a, b, rfl, ha, hb⟩ := hsub
    have hqa : Quiet a := fun o ho => hq o (by simp [ho])
    have hqb : Quiet b := fun o ho => hq o (by simp [ho])
    have h1 := ih (by omega) a s h hqa ha
    have hm : Op.run k ∈ b := hb.subset (by simp)
    obtain ⟨b1, b2, rfl⟩ := List.append_of_mem hm
    rw [exec_append, exec_append]
    have h2 := going_exec c pub hp v k b1 _ h1 fun o ho => hqb o (by simp [ho])
    have h3 := going_step c pub hp v k _ h2 (.run k) ⟨by simp, by simp⟩
    have h4 := run_caught c v r hr k (by omega) _ h2.caught h2.sync h2.opn
    exact going_exec c pub hp v (k + 1) b2 _ ⟨h3.inv, h3.sync, h3.opn, h4⟩ fun o ho => hqb o (by simp [ho])

theorem exec_going (c : Chain V) (v0 : V) (s : State V) (hs : c.start v0 = some s) (ops : List (Op V))
    (hp : ∀ v ∈ v0 :: sent ops, Harmless c v) (hc : .close ∉ ops) :
    (∃ g h, Inv c (v0 :: sent ops) (c.exec s ops) g h) ∧ Sync c (c.exec s ops) ∧ Open c (c.exec s ops) := by
  obtain ⟨hi, ho⟩ := start_inv c v0 s hs
  have hsy := start_sync c v0 s hs
  refine ⟨?_, exec_sync c ops s hsy, ?_⟩
  · obtain ⟨g, h, h1, -⟩ := exec_inv c ops _ s _ _ hi
    rw [ho 0 (Nat.zero_le _)] at h1
    exact ⟨g, h, h1⟩
  · have : ∀ (ops : List (Op V)) (pub : List V) (s : State V) (g h : Nat → Nat), Inv c pub s g h → Open c s →
        (∀ v ∈ pub ++ sent ops, Harmless c v) → .close ∉ ops → Open c (c.exec s ops) := by
      intro ops
      induction ops with
      | nil => exact fun _ _ _ _ _ ho _ _ => ho
      | cons o ops ih =>
        intro pub s g h hi ho hp hc
        have hoc : o ≠ .close := by rintro rfl; simp at hc
        obtain ⟨g', h', hi', -⟩ := step_inv c pub s g h hi o
        refine ih _ _ g' h' hi' (step_open c pub s g h hi ho (fun v hv => hp v (by simp [hv])) o hoc) ?_ (by simp at hc; exact hc.2)
        intro v hv
        refine hp v ?_
        have e : newly s o ++ sent ops = sent (o :: ops) := by
          cases o <;> simp [newly, sent, ho 0 (Nat.zero_le _)] at hoc ⊢
        rw [List.append_assoc, e] at hv
        exact hv
    exact this ops [v0] s _ _ hi ho (by simpa using hp) hc

/-- The latest value arrives: once it is published and each task has run after the one before it, a service that is polled uses
what the tasks make of it. This holds after any history in which no published value makes a task panic and the source's sender
stays, whatever else happens meanwhile but a new value. -/
theorem C77_latest_value_is_used (c : Chain V) (v0 : V) (s : State V) (hs : c.start v0 = some s) (ops later : List (Op V))
    (v r : V) (hp : ∀ w ∈ v0 :: sent ops, Harmless c w) (hc : .close ∉ ops) (hr : c.through c.length v = some r)
    (hq : Quiet later) (hrun : ((List.range c.length).map Op.run).Sublist later) (i : Nat)
    (hi : ((c.exec s (ops ++ .publish v :: later)).using i).isSome = true) :
    (c.exec s (ops ++ .publish v :: later ++ [.poll i])).using i = some r := by
  obtain ⟨⟨g, h, h1⟩, h2, h3⟩ := exec_going c v0 s hs ops hp hc
  obtain ⟨g', h', h1', -⟩ := step_inv c _ _ g h h1 (.publish v)
  have hv : Harmless c v := by
    intro k w hk hw he
    obtain ⟨x, hx⟩ := Option.isSome_iff_exists.1 (through_le c v (show k + 1 ≤ c.length from hk) (by simp [hr]))
    obtain ⟨w', hw', hm⟩ := (through_succ c k v x).1 hx
    rw [hw] at hw'
    cases hw'
    rw [he] at hm
    cases hm
  have hp' : ∀ w ∈ (v0 :: sent ops) ++ [v], Harmless c w := by
    intro w hw
    rcases List.mem_append.1 hw with hw | hw
    · exact hp w hw
    · simp at hw; subst hw; exact hv
  have hnew : newly (c.exec s ops) (.publish v) = [v] := by simp [newly, h3 0 (Nat.zero_le _)]
  rw [hnew] at h1'
  have hg0 : Going c ((v0 :: sent ops) ++ [v]) v 0 (c.step (c.exec s ops) (.publish v)) := by
    refine ⟨⟨g', h', h1'⟩, step_sync c _ h2 _, step_open c _ _ g h h1 h3 hp _ (by simp), ?_⟩
    intro j hj
    have : j = 0 := by omega
    subst this
    simp [Chain.step, h3 0 (Nat.zero_le _), upd_same, Watch.send, Chain.through]
  have hg := going_sweep c _ hp' v r hr c.length (Nat.le_refl _) later _ hg0 hq hrun
  have e : c.exec s (ops ++ .publish v :: later) = c.exec (c.step (c.exec s ops) (.publish v)) later := by
    rw [exec_append]; rfl
  rw [exec_append, e]
  rw [e] at hi
  generalize c.exec (c.step (c.exec s ops) (.publish v)) later = t at hi hg
  obtain ⟨x, hx⟩ := Option.isSome_iff_exists.1 hi
  simp only [State.using, Option.map_eq_some_iff] at hx
  obtain ⟨y, hy, rfl⟩ := hx
  simp only [Chain.exec, List.foldl_cons, List.foldl_nil, Chain.step, State.using, upd_same, hy, Option.map_some]
  have hval := hg.caught c.length (Nat.le_refl _)
  rw [hr] at hval
  have := hg.sync.svc i y hy
  unfold Svc.poll
  split
  · exact hval.symm
  · rename_i hn
    have hse : y.seen = (t.watches c.length).version := by
      refine Classical.byContradiction fun hne => hn ⟨hg.opn _ (Nat.le_refl _), hne⟩
    rw [this.2 hse]
    exact hval.symm

/-! ## Limits -/

/-- Once the last watch has lost its sender, services stay as they are for ever. -/
theorem C77_limit_closed_is_frozen (c : Chain V) (s : State V) (h : (s.watches c.length).closed = true)
    (ops : List (Op V)) (i : Nat) (x : V) (hx : s.using i = some x) : (c.exec s ops).using i = some x := by
  induction ops generalizing s with
  | nil => exact hx
  | cons o ops ih =>
    refine ih (c.step s o) ?_ ?_
    · cases o with
      | publish v =>
        simp only [Chain.step]
        split
        · exact h
        · rename_i hn
          by_cases e : c.length = 0
          · rw [e] at h; exact absurd h hn
          · simp only [upd_ne _ _ e]; exact h
      | close =>
        by_cases e : c.length = 0
        · simp only [Chain.step, e, upd_same]; rfl
        · simp only [Chain.step, upd_ne _ _ e]; exact h
      | run k =>
        simp only [Chain.step, Chain.run]
        by_cases hk : k < c.length ∧ (s.watches (k + 1)).closed = false
        · have e : c.length ≠ k + 1 := by
            intro e
            rw [e] at h
            rw [h] at hk
            exact absurd hk.2 (by simp)
          rw [if_pos hk]
          repeat' split
          all_goals first | exact h | (simp only [upd_ne _ _ e]; exact h)
        · rw [if_neg hk]; exact h
      | poll j => exact h
      | clone j l => simp only [Chain.step]; split <;> exact h
    · simp only [State.using, Option.map_eq_some_iff] at hx ⊢
      obtain ⟨y, hy, rfl⟩ := hx
      cases o with
      | publish v => simp only [Chain.step]; split <;> exact ⟨y, hy, rfl⟩
      | close => exact ⟨y, hy, rfl⟩
      | run k =>
        simp only [Chain.step, Chain.run]
        repeat' split
        all_goals exact ⟨y, hy, rfl⟩
      | poll j =>
        simp only [Chain.step]
        by_cases e : i = j
        · subst e
          refine ⟨y, ?_, rfl⟩
          rw [upd_same, hy]
          simp [Svc.poll, h]
        · exact ⟨y, by rw [upd_ne _ _ e]; exact hy, rfl⟩
      | clone j l =>
        simp only [Chain.step]
        split
        · exact ⟨y, hy, rfl⟩
        · rename_i hl
          have e : i ≠ l := by rintro rfl; simp [hy] at hl
          exact ⟨y, by simp only [upd_ne _ _ e]; exact hy, rfl⟩

/-- So one update that panics the last task, for example a router that cannot be built, leaves the services with the old
router, and no later update is used. -/
theorem C77_limit_panic_freezes (c : Chain V) (s : State V) (k : Nat) (hk : c.length = k + 1)
    (hn : s.seen k ≠ (s.watches k).version) (hm : c.make k (s.watches k).value = .panic)
    (ops : List (Op V)) (i : Nat) (x : V) (hx : s.using i = some x) :
    (c.exec s (.run k :: ops)).using i = some x := by
  by_cases hc : (s.watches (k + 1)).closed = true
  · exact C77_limit_closed_is_frozen c s (by rw [hk]; exact hc) _ i x hx
  · refine C77_limit_closed_is_frozen c (c.step s (.run k)) ?_ ops i x ?_
    · simp only [Bool.not_eq_true] at hc
      simp [Chain.step, Chain.run, hc, hn, hm, hk, upd_same, Watch.close]
    · simp only [Chain.step, Chain.run]
      repeat' split
      all_goals exact hx

/-- A chain of one task that adds one, and cannot take 7. -/
def exChain : Chain Nat := ⟨1, fun _ v => if v = 7 then .panic else if v = 8 then .skip else .made (v + 1)⟩

/-- The last value before the sender goes away is not used, if the task ends before the service is polled: its watch holds it,
but the service does not look. -/
theorem C77_limit_last_value_may_be_lost : ∃ s, exChain.start 1 = some s ∧
    (exChain.exec s [.publish 2, .close, .run 0, .run 0, .poll 0]).using 0 = some 2 ∧
    ((exChain.exec s [.publish 2, .close, .run 0, .run 0, .poll 0]).watches 1).value = 3 := ⟨_, rfl, by decide, by decide⟩

/-- A value is published and used; one that is skipped is not; after one that panics nothing is. -/
example : ∃ s, exChain.start 1 = some s ∧ s.using 0 = some 2 ∧
    (exChain.exec s [.publish 5, .run 0, .poll 0]).using 0 = some 6 ∧
    (exChain.exec s [.publish 5, .run 0, .publish 8, .run 0, .poll 0]).using 0 = some 6 ∧
    (exChain.exec s [.publish 7, .run 0, .publish 5, .run 0, .poll 0]).using 0 = some 2 :=
  ⟨_, rfl, by decide, by decide, by decide, by decide⟩

example : Harmless exChain 5 ∧ ¬ Harmless exChain 7 := by
  constructor
  · intro k w hk hw
    have : k = 0 := by simp [exChain] at hk; exact hk
    subst this
    cases hw
    simp [exChain]
  · intro h
    exact h 0 7 (by decide) rfl rfl

end Verif.Follow
