import Verif.Replay.Spec

namespace Verif.Replay

/-! ### Log lemmas -/

theorem delivered_append (i : Nat) (a b : List (Op × Out)) :
    delivered i (a ++ b) = delivered i a ++ delivered i b := by
  induction a with
  | nil => simp [delivered]
  | cons x a ih =>
    obtain ⟨op, o⟩ := x
    cases op <;> cases o <;> simp [delivered, ih]

theorem deliveredTrailers_append (i : Nat) (a b : List (Op × Out)) :
    deliveredTrailers i (a ++ b) = deliveredTrailers i a ++ deliveredTrailers i b := by
  induction a with
  | nil => simp [deliveredTrailers]
  | cons x a ih =>
    obtain ⟨op, o⟩ := x
    cases op <;> cases o <;> simp [deliveredTrailers, ih]

def outData : Out → Bytes
  | .data b => b
  | _ => []

def outTrailers : Out → List Trailers
  | .trailers t => [t]
  | _ => []

theorem delivered_snoc_self (i : Nat) (L : List (Op × Out)) (o : Out) :
    delivered i (L ++ [(.poll i, o)]) = delivered i L ++ outData o := by
  rw [delivered_append]; cases o <;> simp [delivered, outData]

theorem deliveredTrailers_snoc_self (i : Nat) (L : List (Op × Out)) (o : Out) :
    deliveredTrailers i (L ++ [(.poll i, o)]) = deliveredTrailers i L ++ outTrailers o := by
  rw [deliveredTrailers_append]; cases o <;> simp [deliveredTrailers, outTrailers]

theorem delivered_snoc_other (i : Nat) (L : List (Op × Out)) (op : Op) (o : Out)
    (h : op ≠ .poll i) : delivered i (L ++ [(op, o)]) = delivered i L := by
  rw [delivered_append]
  cases op <;> cases o <;> simp_all [delivered]

theorem deliveredTrailers_snoc_other (i : Nat) (L : List (Op × Out)) (op : Op) (o : Out)
    (h : op ≠ .poll i) : deliveredTrailers i (L ++ [(op, o)]) = deliveredTrailers i L := by
  rw [deliveredTrailers_append]
  cases op <;> cases o <;> simp_all [deliveredTrailers]

/-- Clone `i` has had an answer from the body. -/
def Polled (i : Nat) (L : List (Op × Out)) : Prop := ∃ o, (Op.poll i, o) ∈ L ∧ ¬ NoBody o

theorem not_polled_delivered {i : Nat} {L : List (Op × Out)} (h : ¬ Polled i L) :
    delivered i L = [] ∧ deliveredTrailers i L = [] ∧ (Op.poll i, Out.eos) ∉ L := by
  induction L with
  | nil => simp [delivered, deliveredTrailers]
  | cons x L ih =>
    obtain ⟨op, o⟩ := x
    have hL : ¬ Polled i L := by
      rintro ⟨o', ho', hn⟩; exact h ⟨o', List.mem_cons_of_mem _ ho', hn⟩
    obtain ⟨h1, h2, h3⟩ := ih hL
    have hx : op = .poll i → NoBody o := by
      rintro rfl
      apply Classical.byContradiction
      intro hn; exact h ⟨o, by simp, hn⟩
    have key : ∀ j, op = .poll j → (NoBody o ∨ j ≠ i) := by
      intro j hj
      by_cases hji : j = i
      · subst hji; exact Or.inl (hx hj)
      · exact Or.inr hji
    refine ⟨?_, ?_, ?_⟩
    · cases op with
      | poll j =>
        rcases key j rfl with hb | hb
        · rcases hb with rfl | rfl <;> simpa [delivered] using h1
        · cases o <;> simp [delivered, h1, hb]
      | _ => cases o <;> simpa [delivered] using h1
    · cases op with
      | poll j =>
        rcases key j rfl with hb | hb
        · rcases hb with rfl | rfl <;> simpa [deliveredTrailers] using h2
        · cases o <;> simp [deliveredTrailers, h2, hb]
      | _ => cases o <;> simpa [deliveredTrailers] using h2
    · intro hm
      rcases List.mem_cons.1 hm with heq | hm
      · obtain ⟨rfl, rfl⟩ := Prod.mk.inj heq
        rcases hx rfl with hc | hc <;> cases hc
      · exact h3 hm

theorem Primed.seen {i : Nat} {L : List (Op × Out)} (h : Primed i L) :
    ∃ j b, (Op.poll j, Out.data b) ∈ L ∧ b ≠ [] := by
  obtain ⟨pre, post, rfl, _, j, b, hm, hb⟩ := h
  exact ⟨j, b, by simp [hm], hb⟩

theorem Primed.of_snoc {i : Nat} {L : List (Op × Out)} {x : Op × Out}
    (h : Primed i (L ++ [x])) (hp : Polled i (L ++ [x])) : Primed i L := by
  obtain ⟨pre, post, heq, hn, j, b, hm, hb⟩ := h
  rcases List.eq_nil_or_concat post with rfl | ⟨post', y, rfl⟩
  · rw [List.append_nil] at heq
    obtain ⟨o, ho, hno⟩ := hp
    exact absurd (hn o (heq ▸ ho)) hno
  · rw [List.concat_eq_append, ← List.append_assoc] at heq
    have := List.append_inj' heq rfl
    exact ⟨pre, post', this.1, hn, j, b, hm, hb⟩

theorem Primed.of_snoc_noData {i : Nat} {L : List (Op × Out)} {op : Op} {o : Out}
    (h : Primed i (L ++ [(op, o)])) (ho : ∀ b, o ≠ .data b) : Primed i L := by
  obtain ⟨pre, post, heq, hn, j, b, hm, hb⟩ := h
  rcases List.eq_nil_or_concat post with rfl | ⟨post', y, rfl⟩
  · rw [List.append_nil] at heq
    subst heq
    refine ⟨L, [], by simp, fun o' ho' => hn o' (by simp [ho']), j, b, ?_, hb⟩
    rcases List.mem_append.1 hm with hm | hm
    · exact hm
    · simp at hm; exact absurd hm.2.symm (ho b)
  · rw [List.concat_eq_append, ← List.append_assoc] at heq
    have := List.append_inj' heq rfl
    exact ⟨pre, post', this.1, hn, j, b, hm, hb⟩

/-! ### Core state invariant -/

def left (s : BodyState) : Bytes := if s.isCompleted then [] else dataOf s.rest

structure Core (script : List BodyItem) (max : Nat) (s : BodyState) (got : Bytes) : Prop where
  total : got ++ left s = dataOf script
  cap : (s.maxBytes ≠ 0 ∧ s.replay.flatten = got ∧ s.maxBytes + got.length = max + 1) ∨
        (s.maxBytes = 0 ∧ s.replay = [] ∧ got.length ≥ max + 1)
  trC : s.isCompleted = true → s.trailers = trailersOf script
  trN : s.isCompleted = false → s.trailers = none ∧ trailersOf s.rest = trailersOf script
  nu : NoUnknown script → NoUnknown s.rest

/-- Relation of the owner's flags to what it was handed. -/
def OwnRel (script : List BodyItem) (rb rt : Bool) (s : BodyState) (got D : Bytes)
    (T : List Trailers) (E C : Prop) : Prop :=
  (¬ C ∧ D = got ∧ (rb = false ∨ dataOf script = []) ∧ (rt = false → T = s.trailers.toList) ∧
    (rt = true → T = []) ∧ (NoUnknown script → E → s.isCompleted = true ∧ rt = false)) ∨
  (rb = true ∧ rt = true ∧ D = [] ∧ T = [] ∧ ¬ E ∧ got ≠ [] ∧ (C → s.maxBytes = 0))

theorem remaining_eq (c : Chunks) : remaining c = c.flatten.length := by
  simp [remaining, List.length_flatten]

theorem pollOwned_spec {script : List BodyItem} {max : Nat} {s : BodyState} {got : Bytes}
    (rb rt : Bool) (hc : Core script max s got) :
    ∃ got', Core script max (pollOwned rb rt s).1.2.2 got' ∧
      (got ≠ [] → got' ≠ []) ∧
      (∀ b, (pollOwned rb rt s).2 = .data b → b ≠ [] → got' ≠ []) ∧
      ¬ NoBody (pollOwned rb rt s).2 ∧
      (rt = false → (pollOwned rb rt s).1.2.1 = false) ∧
      (rb = false → (pollOwned rb rt s).1.1 = false) ∧
      (∀ D T E C, OwnRel script rb rt s got D T E C →
        OwnRel script (pollOwned rb rt s).1.1 (pollOwned rb rt s).1.2.1 (pollOwned rb rt s).1.2.2 got'
          (D ++ outData (pollOwned rb rt s).2) (T ++ outTrailers (pollOwned rb rt s).2)
          (E ∨ (pollOwned rb rt s).2 = .eos) (C ∨ (pollOwned rb rt s).2 = .capped)) := by
  obtain ⟨htot, hcap, htrC, htrN, hnu⟩ := hc
  unfold pollOwned
  split
  · -- replay the buffer
    rename_i h
    simp only [Bool.and_eq_true, decide_eq_true_eq, remaining_eq] at h
    obtain ⟨hrb, hrem⟩ := h
    have hne : s.replay.flatten ≠ [] := by
      intro h0; rw [h0] at hrem; simp at hrem
    have hcap' : s.maxBytes ≠ 0 ∧ s.replay.flatten = got ∧ s.maxBytes + got.length = max + 1 := by
      rcases hcap with h | ⟨_, h0, _⟩
      · exact h
      · rw [h0] at hne; simp at hne
    have hgne : got ≠ [] := hcap'.2.1 ▸ hne
    refine ⟨got, ⟨htot, hcap, htrC, htrN, hnu⟩, id, fun _ _ _ => hgne, ?_, ?_, ?_, ?_⟩
    · simp [NoBody]
    · exact id
    · exact fun _ => rfl
    · intro D T E C hO
      simp only [outData, outTrailers, List.append_nil]
      rcases hO with ⟨hC, hD, hr, hT0, hT1, hE⟩ | ⟨_, hrt, hD, hT, hE, _, hC⟩
      · rcases hr with hr | hr
        · simp [hr] at hrb
        · exfalso
          rw [hr] at htot
          exact hgne (List.append_eq_nil_iff.1 htot).1
      · left
        refine ⟨by simp; exact fun c => hcap'.1 (hC c), by rw [hD, hcap'.2.1]; simp, Or.inl rfl, ?_, fun _ => hT, ?_⟩
        · intro h; simp [hrt] at h
        · rintro _ (h | h)
          · exact absurd h hE
          · cases h
  · rename_i hrep
    split
    · -- capped
      rename_i h
      simp only [Bool.and_eq_true, BodyState.isCapped, beq_iff_eq] at h
      refine ⟨got, ⟨htot, hcap, htrC, htrN, hnu⟩, id, ?_, ?_, id, id, ?_⟩
      · intro b h; cases h
      · simp [NoBody]
      · intro D T E C hO
        simp only [outData, outTrailers, List.append_nil]
        rcases hO with ⟨hC, hD, hr, hT0, hT1, hE⟩ | ⟨_, hrt, hD, hT, hE, hg, hC⟩
        · exfalso
          rcases hr with hr | hr
          · simp [hr] at h
          · rw [hr] at htot
            have := (List.append_eq_nil_iff.1 htot).1
            rcases hcap with h' | ⟨_, _, hl⟩
            · exact h'.1 h.2
            · rw [this] at hl; simp at hl
        · right
          exact ⟨h.1, hrt, hD, hT, by simp [hE], hg, fun _ => h.2⟩
    · rename_i hncap
      -- from here on case B of `OwnRel` is impossible
      have hnoB : rb = true → got ≠ [] → False := by
        intro hrb hg
        rcases hcap with ⟨_, hf, _⟩ | ⟨hm, _, _⟩
        · apply hrep
          simp only [hrb, Bool.true_and, decide_eq_true_eq, remaining_eq, hf]
          exact List.length_pos_iff.2 hg
        · apply hncap; simp [hrb, BodyState.isCapped, hm]
      split
      · -- replay trailers
        rename_i t ht
        refine ⟨got, ⟨htot, hcap, htrC, htrN, hnu⟩, id, ?_, ?_, fun _ => rfl, id, ?_⟩
        · intro b h; cases h
        · simp [NoBody]
        · intro D T E C hO
          simp only [outData, outTrailers, List.append_nil]
          rcases hO with ⟨hC, hD, hr, hT0, hT1, hE⟩ | ⟨hrb, _, _, _, _, hg, _⟩
          · left
            refine ⟨by simp [hC], hD, hr, ?_, ?_, ?_⟩
            · intro _; simp [hT1 rfl, ht]
            · simp
            · rintro hN (h | h)
              · exact ⟨(hE hN h).1, rfl⟩
              · cases h
          · exact (hnoB hrb hg).elim
      · rename_i rt _ _ hrt
        have hT : ∀ T : List Trailers, ((rt = false → T = s.trailers.toList) ∧ (rt = true → T = [])) →
            T = s.trailers.toList := by
          intro T ⟨h0, h1⟩
          cases rt with
          | false => exact h0 rfl
          | true =>
            cases hs : s.trailers with
            | none => simpa using h1 rfl
            | some t => exact (hrt t rfl hs).elim
        -- generic step: no data, no trailers change
        split
        · -- completed
          rename_i hcomp
          refine ⟨got, ⟨htot, hcap, htrC, htrN, hnu⟩, id, ?_, ?_, fun _ => rfl, id, ?_⟩
          · intro b h; cases h
          · simp [NoBody]
          · intro D T E C hO
            simp only [outData, outTrailers, List.append_nil]
            rcases hO with ⟨hC, hD, hr, hT0, hT1, hE⟩ | ⟨hrb, _, _, _, _, hg, _⟩
            · left
              exact ⟨by simp [hC], hD, hr, fun _ => hT T ⟨hT0, hT1⟩, by simp, fun _ _ => ⟨hcomp, rfl⟩⟩
            · exact (hnoB hrb hg).elim
        · rename_i hcomp
          have hcomp : s.isCompleted = false := by simpa using hcomp
          obtain ⟨htr0, htrR⟩ := htrN hcomp
          simp only [left, hcomp, Bool.false_eq_true, if_false] at htot
          -- result of a poll of the inner body
          match hrest : s.rest with
          | [] =>
            simp only [hrest, dataOf, trailersOf] at htot htrR
            refine ⟨got, ⟨by simpa [left] using htot, hcap, fun _ => by simp [htr0, htrR],
              by simp, fun _ => by simp [NoUnknown]⟩, id, ?_, ?_, fun _ => rfl, id, ?_⟩
            · intro b h; cases h
            · simp [NoBody]
            · intro D T E C hO
              simp only [outData, outTrailers, List.append_nil]
              rcases hO with ⟨hC, hD, hr, hT0, hT1, hE⟩ | ⟨hrb, _, _, _, _, hg, _⟩
              · left
                exact ⟨by simp [hC], hD, hr, fun _ => hT T ⟨hT0, hT1⟩, by simp, fun _ _ => ⟨rfl, rfl⟩⟩
              · exact (hnoB hrb hg).elim
          | .pending :: r =>
            simp only [hrest, dataOf, trailersOf] at htot htrR
            have hnu' : NoUnknown script → NoUnknown r := by
              intro h hm; exact hnu h (by rw [hrest]; exact List.mem_cons_of_mem _ hm)
            refine ⟨got, ⟨by simpa [left, hcomp] using htot, hcap, by simp [hcomp],
              fun _ => ⟨htr0, htrR⟩, hnu'⟩, id, ?_, ?_, fun _ => rfl, id, ?_⟩
            · intro b h; cases h
            · simp [NoBody]
            · intro D T E C hO
              simp only [outData, outTrailers, List.append_nil]
              rcases hO with ⟨hC, hD, hr, hT0, hT1, hE⟩ | ⟨hrb, _, _, _, _, hg, _⟩
              · left
                refine ⟨by simp [hC], hD, hr, fun _ => hT T ⟨hT0, hT1⟩, by simp, ?_⟩
                rintro hN (h | h)
                · exact ⟨(hE hN h).1, rfl⟩
                · cases h
              · exact (hnoB hrb hg).elim
          | .err e :: r =>
            simp only [hrest, dataOf, trailersOf] at htot htrR
            have hnu' : NoUnknown script → NoUnknown r := by
              intro h hm; exact hnu h (by rw [hrest]; exact List.mem_cons_of_mem _ hm)
            refine ⟨got, ⟨by simpa [left, hcomp] using htot, hcap, by simp [hcomp],
              fun _ => ⟨htr0, htrR⟩, hnu'⟩, id, ?_, ?_, fun _ => rfl, id, ?_⟩
            · intro b h; cases h
            · simp [NoBody]
            · intro D T E C hO
              simp only [outData, outTrailers, List.append_nil]
              rcases hO with ⟨hC, hD, hr, hT0, hT1, hE⟩ | ⟨hrb, _, _, _, _, hg, _⟩
              · left
                refine ⟨by simp [hC], hD, hr, fun _ => hT T ⟨hT0, hT1⟩, by simp, ?_⟩
                rintro hN (h | h)
                · exact ⟨(hE hN h).1, rfl⟩
                · cases h
              · exact (hnoB hrb hg).elim
          | .frame .unknown :: r =>
            simp only [hrest, dataOf, trailersOf] at htot htrR
            have hnu' : NoUnknown script → NoUnknown r := by
              intro h hm; exact hnu h (by rw [hrest]; exact List.mem_cons_of_mem _ hm)
            refine ⟨got, ⟨by simpa [left, hcomp] using htot, hcap, by simp [hcomp],
              fun _ => ⟨htr0, htrR⟩, hnu'⟩, id, ?_, ?_, fun _ => rfl, id, ?_⟩
            · intro b h; cases h
            · simp [NoBody]
            · intro D T E C hO
              simp only [outData, outTrailers, List.append_nil]
              rcases hO with ⟨hC, hD, hr, hT0, hT1, hE⟩ | ⟨hrb, _, _, _, _, hg, _⟩
              · left
                refine ⟨by simp [hC], hD, hr, fun _ => hT T ⟨hT0, hT1⟩, by simp, ?_⟩
                intro hN
                exact absurd (by rw [hrest]; simp) (hnu hN)
              · exact (hnoB hrb hg).elim
          | .frame (.trailers t) :: r =>
            simp only [hrest, dataOf, trailersOf, List.append_nil] at htot htrR
            have hnu' : NoUnknown script → NoUnknown r := by
              intro h hm; exact hnu h (by rw [hrest]; exact List.mem_cons_of_mem _ hm)
            refine ⟨got, ⟨by simpa [left] using htot, hcap, fun _ => htrR,
              by simp, hnu'⟩, id, ?_, ?_, fun _ => rfl, id, ?_⟩
            · intro b h; cases h
            · simp [NoBody]
            · intro D T E C hO
              simp only [outData, outTrailers, List.append_nil]
              rcases hO with ⟨hC, hD, hr, hT0, hT1, hE⟩ | ⟨hrb, _, _, _, _, hg, _⟩
              · left
                refine ⟨by simp [hC], hD, hr, fun _ => ?_, by simp, fun _ _ => ⟨rfl, rfl⟩⟩
                rw [hT T ⟨hT0, hT1⟩, htr0]; simp
              · exact (hnoB hrb hg).elim
          | .frame (.data d) :: r =>
            simp only [hrest, dataOf, trailersOf] at htot htrR
            have hnu' : NoUnknown script → NoUnknown r := by
              intro h hm; exact hnu h (by rw [hrest]; exact List.mem_cons_of_mem _ hm)
            have hlen : (got ++ d).length = got.length + d.length := by simp
            refine ⟨got ++ d, ?_, ?_, ?_, ?_, fun _ => rfl, id, ?_⟩
            · have hfld : (({ s with rest := r }).recordBytes d).isCompleted = false ∧
                  (({ s with rest := r }).recordBytes d).rest = r ∧
                  (({ s with rest := r }).recordBytes d).trailers = none := by
                unfold BodyState.recordBytes
                simp only
                split <;> simp [hcomp, htr0]
              refine ⟨?_, ?_, ?_, ?_, ?_⟩
              · simp only [left, hfld.1, Bool.false_eq_true, if_false, hfld.2.1]
                simpa using htot
              · unfold BodyState.recordBytes
                simp only
                rcases hcap with ⟨hm, hf, hsum⟩ | ⟨hm, hf, hge⟩
                · split
                  · rename_i h0
                    simp only [beq_iff_eq] at h0
                    right; exact ⟨h0, rfl, by omega⟩
                  · rename_i h0
                    simp only [beq_iff_eq] at h0
                    left; exact ⟨h0, by simp [hf], by simp only; omega⟩
                · split
                  · rename_i h0
                    simp only [beq_iff_eq] at h0
                    right; exact ⟨h0, rfl, by omega⟩
                  · rename_i h0
                    simp only [beq_iff_eq] at h0
                    omega
              · simp [hfld.1]
              · exact fun _ => ⟨hfld.2.2, by rw [hfld.2.1]; exact htrR⟩
              · intro h; rw [hfld.2.1]; exact hnu' h
            · intro h; simp [h]
            · intro b h hb
              cases h; simp [hb]
            · simp [NoBody]
            · intro D T E C hO
              have hfld : (({ s with rest := r }).recordBytes d).trailers = s.trailers := by
                unfold BodyState.recordBytes
                simp only
                split <;> rfl
              simp only [outData, outTrailers, List.append_nil]
              rcases hO with ⟨hC, hD, hr, hT0, hT1, hE⟩ | ⟨hrb, _, _, _, _, hg, _⟩
              · left
                refine ⟨by simp [hC], by rw [hD], hr, fun _ => ?_, by simp, ?_⟩
                · rw [hfld]; exact hT T ⟨hT0, hT1⟩
                · rintro hN (h | h)
                  · have := (hE hN h).1
                    rw [hcomp] at this; cases this
                  · cases h
              · exact (hnoB hrb hg).elim

end Verif.Replay
