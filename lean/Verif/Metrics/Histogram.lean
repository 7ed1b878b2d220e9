import Verif.Metrics.Lemmas
import Verif.Common.List
/-!
# What a histogram holds
-/
namespace Verif.Metrics

/-- One bound is below another. -/
def Bound.lt : Bound → Bound → Bool
  | .le a, .le b => decide (a < b)
  | .le _, .inf => true
  | .inf, _ => false

/-- The bounds increase, from above zero: what `Histogram::new` asserts (metrics/src/histogram.rs:56–61). -/
theorem latencyBounds_sorted : (.le 0 :: latencyBounds).Pairwise (fun a b => a.lt b = true) := by decide +kernel

theorem Bound.fits_mono {a b : Bound} (h : a.lt b = true) (v : Nat) (hf : a.fits v = true) : b.fits v = true := by
  cases a <;> cases b <;> simp [Bound.lt, Bound.fits] at *
  omega

theorem any_take (v : Nat) (bs : List Bound) (hs : bs.Pairwise (fun a b => a.lt b = true)) (i : Nat) (b : Bound)
    (h : bs[i]? = some b) : (bs.take (i + 1)).any (Bound.fits v) = b.fits v := by
  induction bs generalizing i with
  | nil => simp at h
  | cons c bs ih =>
    obtain ⟨hc, hs⟩ := List.pairwise_cons.1 hs
    cases i with
    | zero => simp at h; subst h; simp
    | succ i =>
      simp only [List.getElem?_cons_succ] at h
      rw [List.take_succ_cons, List.any_cons, ih hs i h]
      cases hcv : c.fits v with
      | false => rfl
      | true => rw [Bound.fits_mono (hc b (List.mem_of_getElem? h)) v hcv]; rfl

/-- Counts up to a bound. -/
def upTo (bs : List (Bound × Nat)) (n : Nat) : Nat := ((bs.take n).map Prod.snd).sum

theorem bump_some (v : Nat) (bs : List (Bound × Nat)) (h : bs.any (fun e => e.1.fits v) = true) :
    (bump v bs).isSome = true := by
  induction bs with
  | nil => simp at h
  | cons e bs ih =>
    obtain ⟨b, n⟩ := e
    simp only [bump]
    split
    · rfl
    · rename_i hb
      simp only [List.any_cons, hb, Bool.false_or] at h
      simp [ih h]

theorem bump_spec (v : Nat) (bs bs' : List (Bound × Nat)) (h : bump v bs = some bs')
    (hs : (bs.map Prod.snd).sum + 1 < 2 ^ 64) :
    bs'.map Prod.fst = bs.map Prod.fst ∧
    ∀ i, upTo bs' i = upTo bs i + if ((bs.map Prod.fst).take i).any (Bound.fits v) then 1 else 0 := by
  induction bs generalizing bs' with
  | nil => simp [bump] at h
  | cons e bs ih =>
    obtain ⟨b, n⟩ := e
    simp only [List.map_cons, List.sum_cons] at hs
    simp only [bump] at h
    split at h
    · rename_i hb
      simp only [Option.some.injEq] at h
      subst h
      refine ⟨rfl, fun i => ?_⟩
      cases i with
      | zero => simp [upTo]
      | succ i =>
        have : add64 n 1 = n + 1 := by unfold add64; omega
        simp [upTo, hb, this]; omega
    · rename_i hb
      cases hr : bump v bs with
      | none => rw [hr] at h; simp at h
      | some r =>
        rw [hr] at h
        simp only [Option.map_some, Option.some.injEq] at h
        subst h
        obtain ⟨h1, h2⟩ := ih r hr (by omega)
        refine ⟨by simp [h1], fun i => ?_⟩
        cases i with
        | zero => simp [upTo]
        | succ i =>
          have := h2 i
          simp only [upTo] at this
          simp only [upTo, List.take_succ_cons, List.map_cons, List.sum_cons, this, List.any_cons,
            Bool.eq_false_iff.2 hb, Bool.false_or]
          omega

/-- Observe values one after the other. -/
def observe (vs : List Nat) : Option Hist := vs.foldlM Hist.add (Hist.new latencyBounds)

theorem observe_snoc (vs : List Nat) (v : Nat) : observe (vs ++ [v]) = (observe vs).bind fun h => h.add v := by
  unfold observe
  rw [List.foldlM_append]
  cases List.foldlM Hist.add (Hist.new latencyBounds) vs with
  | none => rfl
  | some h => simp

/-- What a histogram has counted. -/
structure Counted (vs : List Nat) (h : Hist) : Prop where
  bounds : h.buckets.map Prod.fst = latencyBounds
  counts : ∀ i b, latencyBounds[i]? = some b → upTo h.buckets (i + 1) = vs.countP fun v => b.fits v
  total : (h.buckets.map Prod.snd).sum = vs.length
  sum : h.sum = vs.sum % 2 ^ 64

theorem upTo_all (bs : List (Bound × Nat)) (n : Nat) (h : bs.length ≤ n) : upTo bs n = (bs.map Prod.snd).sum := by
  simp [upTo, List.take_of_length_le h]

theorem counted (vs : List Nat) (hn : vs.length < 2 ^ 64 - 1) : ∃ h, observe vs = some h ∧ Counted vs h := by
  induction vs using snoc_induction with
  | nil =>
    refine ⟨Hist.new latencyBounds, rfl, by decide +kernel, ?_, by decide +kernel, rfl⟩
    intro i b hb
    rw [show (Hist.new latencyBounds).buckets = latencyBounds.map fun b => (b, 0) from rfl]
    have : ∀ (l : List Bound) n, upTo (l.map fun b => (b, 0)) n = 0 := by
      intro l n
      induction l generalizing n with
      | nil => simp [upTo]
      | cons c l ih =>
        cases n with
        | zero => simp [upTo]
        | succ n => simpa [upTo] using ih n
    rw [this]; rfl
  | snoc vs v ih =>
    simp only [List.length_append, List.length_cons, List.length_nil] at hn
    obtain ⟨h, hh, hc⟩ := ih (by omega)
    have hlen : h.buckets.length = latencyBounds.length := by rw [← hc.bounds, List.length_map]
    have hany : h.buckets.any (fun e => e.1.fits v) = true := by
      have : (h.buckets.map Prod.fst).any (Bound.fits v) = true := by
        rw [hc.bounds, List.any_eq_true]
        exact ⟨.inf, by decide, rfl⟩
      simpa [List.any_map] using this
    obtain ⟨bs', hb⟩ := Option.isSome_iff_exists.1 (bump_some v h.buckets hany)
    obtain ⟨h1, h2⟩ := bump_spec v h.buckets bs' hb (by rw [hc.total]; omega)
    have hlen' : bs'.length = latencyBounds.length := by rw [← hlen, ← List.length_map Prod.fst, h1, List.length_map]
    have hcount : ∀ i b, latencyBounds[i]? = some b → upTo bs' (i + 1) = (vs ++ [v]).countP fun v => b.fits v := by
      intro i b hib
      rw [h2, hc.counts i b hib, hc.bounds,
        any_take v latencyBounds (List.pairwise_cons.1 latencyBounds_sorted).2 i b hib]
      simp [List.countP_append, List.countP_cons]
    refine ⟨⟨bs', add64 h.sum v⟩, by rw [observe_snoc, hh]; simp [Hist.add, hb], h1.trans hc.bounds, hcount, ?_, ?_⟩
    · have e := h2 bs'.length
      rw [upTo_all _ _ (Nat.le_refl _), upTo_all _ _ (by omega), hc.total, List.take_of_length_le (by
        rw [List.length_map]; omega), hc.bounds] at e
      have : latencyBounds.any (Bound.fits v) = true := List.any_eq_true.2 ⟨.inf, by decide, rfl⟩
      rw [this] at e
      simpa using e
    · show add64 h.sum v = _
      rw [hc.sum, add64_mod]; simp

end Verif.Metrics
