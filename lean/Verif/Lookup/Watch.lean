import Verif.StreamWatch.Props
import Verif.Lookup.Model

/-!
# What a lookup hears

A watch whose messages are converted, and when its lookup is over.
-/

namespace Verif.Lookup

open Verif Verif.StreamWatch

variable {U V : Type}

/-! ## Specification -/

/-- The lookup is refused with `c`: before any message there is an answer that is not to be tried again. -/
def Refused (recover : Code → Bool) (es : List (Ev U)) (c : Code) : Prop :=
  delivered es = none ∧ recover c = false ∧ Ev.failed c ∈ es

/-- The lookup has no answer yet: no message, and only failures that are to be tried again. -/
def Undecided (recover : Code → Bool) (es : List (Ev U)) : Prop :=
  delivered es = none ∧ ∀ c, Ev.failed c ∈ es → recover c = true

/-! ## Lemmas -/

/-- A watch with its value converted. -/
def vmap (f : U → V) (w : Watch U) : Watch V := ⟨w.phase, w.value.map f, w.publishing, w.dropped⟩

theorem vmap_step (recover : Code → Bool) (f : U → V) (w : Watch U) (e : Ev U) :
    vmap f (w.step recover e) = (vmap f w).step recover (evMap f e) := by
  obtain ⟨phase, value, publishing, dropped⟩ := w
  cases e <;> cases phase <;> simp only [Watch.step, evMap, vmap, Watch.send] <;>
    (repeat' split) <;> first | rfl | simp_all

theorem vmap_run (recover : Code → Bool) (f : U → V) (w : Watch U) (es : List (Ev U)) :
    vmap f (w.run recover es) = (vmap f w).run recover (es.map (evMap f)) := by
  induction es generalizing w with
  | nil => rfl
  | cons e es ih =>
    show vmap f ((w.step recover e).run recover es) = ((vmap f w).step recover (evMap f e)).run recover (es.map (evMap f))
    rw [ih, vmap_step]

/-- What is known of a watch that nobody dropped. -/
structure Known (recover : Code → Bool) (es : List (Ev U)) (w : Watch U) : Prop where
  value : w.value = delivered es
  refused : ∀ c, Ev.failed c ∈ es → recover c = false → w.phase = .stopped (some c)
  quiet : delivered es = none → w.phase ≠ .streaming
  stopped : delivered es = none → ∀ o, w.phase = .stopped o → ∃ c, o = some c ∧ Ev.failed c ∈ es ∧ recover c = false

theorem known (recover : Code → Bool) (es : List (Ev U)) (h : History recover (Watch.init none) es)
    (hd : Ev.drop ∉ es) : Known recover es ((Watch.init none).run recover es) := by
  have hv := C61_value_is_the_last_delivered recover none es h hd
  simp only [Option.or_none] at hv
  induction es using snoc_induction with
  | nil => exact ⟨hv, by simp, by simp [Watch.run, Watch.init], by simp [Watch.run, Watch.init]⟩
  | snoc es e ih =>
    obtain ⟨h1, h2⟩ := h.of_snoc
    have hd' : Ev.drop ∉ es := fun hm => hd (List.mem_append_left _ hm)
    have hne : e ≠ .drop := fun he => hd (by simp [he])
    have hv' := C61_value_is_the_last_delivered recover none es h1 hd'
    simp only [Option.or_none] at hv'
    obtain ⟨-, ir, iq, is⟩ := ih h1 hd' hv'
    have hdr := (inv_run recover none es h1 hd').noDrop
    refine ⟨hv, ?_, ?_, ?_⟩ <;> rw [run_snoc] at * <;> clear hv <;> generalize (Watch.init none).run recover es = w at * <;>
      obtain ⟨phase, value, publishing, dropped⟩ := w <;> dsimp only at ir iq is h2 hv' hdr <;> subst hdr <;> clear h h1 ih
    · intro c hc hr
      rcases List.mem_append.1 hc with hc | hc
      · have := ir c hc hr
        subst this
        cases h2
        exact absurd rfl hne
      · obtain rfl := List.mem_singleton.1 hc
        cases h2
        simp [Watch.step, hr]
    · intro hn
      cases h2 with
      | failed b c =>
        simp only [Watch.step]
        (repeat' split) <;> simp
      | opened b u => simp [delivered_snoc] at hn
      | item u => simp [delivered_snoc] at hn
      | broke c => exact absurd rfl (iq (by simpa [delivered_snoc] using hn))
      | drop => exact absurd rfl hne
      | _ => simp [Watch.step]
    · intro hn o ho
      cases h2 with
      | failed b c =>
        by_cases hr : recover c = true
        · cases b <;> simp [Watch.step, hr] at ho
        · have hr : recover c = false := by simpa using hr
          simp [Watch.step, hr] at ho
          exact ⟨c, ho.symm, by simp, hr⟩
      | opened b u => simp [delivered_snoc] at hn
      | item u => simp [delivered_snoc] at hn
      | broke c => exact absurd rfl (iq (by simpa [delivered_snoc] using hn))
      | drop => exact absurd rfl hne
      | _ => simp [Watch.step] at ho

theorem refused_or_undecided (recover : Code → Bool) (es : List (Ev U)) (hn : delivered es = none) :
    (∃ c, Refused recover es c) ∨ Undecided recover es := by
  by_cases h : ∃ c, Ev.failed c ∈ es ∧ recover c = false
  · obtain ⟨c, h1, h2⟩ := h
    exact .inl ⟨c, hn, h2, h1⟩
  · refine .inr ⟨hn, fun c hc => ?_⟩
    cases hr : recover c with
    | true => rfl
    | false => exact absurd ⟨c, hc, hr⟩ h

theorem looked_ok {recover : Code → Bool} {es : List (Ev U)} {w : Watch U} (k : Known recover es w) (f : U → V) (u : U)
    (h : delivered es = some u) : looked (vmap f w) = some (.ok (f u)) := by
  have hv : (vmap f w).value = some (f u) := by simp [vmap, k.value, h]
  simp [looked, hv]

theorem looked_error {recover : Code → Bool} {es : List (Ev U)} {w : Watch U} (k : Known recover es w) (f : U → V)
    (c : Code) (h : Refused recover es c) : looked (vmap f w) = some (.error c) := by
  have hv : (vmap f w).value = none := by simp [vmap, k.value, h.1]
  have hp : (vmap f w).phase = .stopped (some c) := k.refused c h.2.2 h.2.1
  simp [looked, hv, hp]

theorem looked_none {recover : Code → Bool} {es : List (Ev U)} {w : Watch U} (k : Known recover es w) (f : U → V)
    (h : Undecided recover es) : looked (vmap f w) = none := by
  have hv : (vmap f w).value = none := by simp [vmap, k.value, h.1]
  simp only [looked, hv]
  split
  · rename_i c hp
    obtain ⟨c', -, hm, hr⟩ := k.stopped h.1 _ hp
    have := h.2 c' hm
    simp [hr] at this
  · rfl

/-- After an answer that is not to be tried again there is nothing more to hear. -/
theorem nothing_after (recover : Code → Bool) (es es' : List (Ev U))
    (h : History recover (Watch.init none) (es ++ es')) (hd : Ev.drop ∉ es ++ es') (e : Ev U) (he : e ∈ es)
    (hf : Fatal recover e) : es' = [] := by
  have fin : ∀ pre post : List (Ev U), History recover (Watch.init none) (pre ++ [e] ++ post) →
      Ev.drop ∉ pre ++ [e] ++ post → post = [] := by
    intro pre post
    induction post using snoc_induction with
    | nil => intros; rfl
    | snoc post x ih =>
      intro h hd
      rw [← List.append_assoc] at h hd
      obtain ⟨h1, h2⟩ := h.of_snoc
      have hd1 : Ev.drop ∉ pre ++ [e] ++ post := fun hm => hd (List.mem_append_left _ hm)
      obtain rfl := ih h1 hd1
      simp only [List.append_nil] at h1 h2 hd1
      obtain ⟨c, hc⟩ := (C61_stops_exactly_when_unrecoverable recover none _ h1 hd1).2 ⟨e, by simp, hf⟩
      rw [hc] at h2
      cases h2
      simp at hd
  obtain ⟨a, b, rfl⟩ := List.append_of_mem he
  have hx : a ++ e :: b ++ es' = a ++ [e] ++ (b ++ es') := by simp
  rw [hx] at h hd
  have := fin a (b ++ es') h hd
  simp_all

theorem History.of_append {recover : Code → Bool} {w : Watch U} {es es' : List (Ev U)}
    (h : History recover w (es ++ es')) : History recover w es := by
  induction es' using snoc_induction with
  | nil => simpa using h
  | snoc es' e ih =>
    rw [← List.append_assoc] at h
    exact ih h.of_snoc.1

theorem delivered_append (es es' : List (Ev U)) : delivered (es ++ es') = (delivered es').or (delivered es) := by
  induction es with
  | nil => simp [delivered]
  | cons e es ih => simp only [List.cons_append, delivered, ih, Option.or_assoc]

end Verif.Lookup
