import Verif.ConnCount.Model
import Verif.TransportHeader.Props
import Verif.Metrics.TextProps
import Verif.Dns.Props

/-!
# C127: connections are counted once each, by what they were served for
-/

namespace Verif.ConnCount

open Verif Verif.Io Verif.Endpoint
open Verif.Dns (Str)
open Verif.TransportHeader (Header SessionProtocol)
open Verif.OutboundTcp (MetaKey metaKey)
open Verif.Metrics (add64)

/-! ## Specification -/

/-- The connection is of a client that proved to be `id` and negotiated transport headers, and begins with this one. -/
def Carries (utf8 : Bytes → Bool) (c : Incoming) (h : Header) (id : ServerPolicy.Id) : Prop :=
  c.tls = .established (some id) (some "transport.l5d.io/v1".toList) ∧
    ∃ p, TransportHeader.call utf8 c.io c.reads = .accepted h p

/-- What a connection carries, if it is one of those. -/
def carried (utf8 : Bytes → Bool) (c : Incoming) : Option (Header × ServerPolicy.Id) :=
  match c.tls, TransportHeader.call utf8 c.io c.reads with
  | .established (some id) (some p), .accepted h _ => if p = "transport.l5d.io/v1".toList then some (h, id) else none
  | _, _ => none

theorem carried_iff (utf8 : Bytes → Bool) (c : Incoming) (h : Header) (id : ServerPolicy.Id) :
    carried utf8 c = some (h, id) ↔ Carries utf8 c h id := by
  unfold carried Carries
  split
  · rename_i id' p h' q h1 h2
    rw [h1, h2]
    split
    · rename_i e; subst e
      constructor
      · intro e; cases e; exact ⟨rfl, q, rfl⟩
      · rintro ⟨e, q', e'⟩; cases e; cases e'; rfl
    · rename_i e
      constructor
      · intro e; cases e
      · rintro ⟨e', _⟩; cases e'; exact absurd rfl e
  · rename_i hn
    constructor
    · intro e; cases e
    · rintro ⟨e, q, e'⟩; exact absurd e' (hn _ _ _ _ e)

instance (utf8 : Bytes → Bool) (c : Incoming) (h : Header) (id : ServerPolicy.Id) : Decidable (Carries utf8 c h id) :=
  decidable_of_iff _ (carried_iff utf8 c h id)

/-- Names of clients as certificates have them: DNS names, or URIs, which have a scheme. -/
def Named : ServerPolicy.Id → Prop
  | .dns n => ∃ s, Dns.Name.tryFrom s = some n
  | .uri u => ':' ∈ u

/-- The series of the services that were built, in order: services have these numbers. -/
def built (tr : List (OutOp × Option Outbound.Served)) : List Outbound.Discovered :=
  tr.filterMap fun
    | (.build d, _) => some d
    | _ => none

/-- How many connections were served for a protocol and parents of a group, kind and name. -/
def servedFor (ds : List Outbound.Discovered) (k : OutKey) (tr : List (OutOp × Option Outbound.Served)) : Nat :=
  tr.countP fun
    | (.call i _, some _) => (ds[i]?).any fun d => Outbound.kindOf d == k.1 && d.policy.parent.group == k.2.group &&
        d.policy.parent.kind == k.2.kind && d.policy.parent.name == k.2.name
    | _ => false

/-! ## Proofs -/

section Family

variable {κ ν : Type} [DecidableEq κ]

theorem lookup_create (f : Family κ ν) (k j : κ) (v : ν) :
    Assoc.lookup j (f.create k v) = if j = k then some ((Assoc.lookup j f).getD (v, 0)) else Assoc.lookup j f := by
  unfold Family.create
  split
  · rename_i h
    obtain ⟨x, hx⟩ := Option.isSome_iff_exists.1 h
    split
    · rename_i e; subst e; simp [hx]
    · rfl
  · rename_i h
    rw [Assoc.lookup_put]
    split
    · rename_i e; subst e
      simp at h
      simp [h]
    · rfl

theorem lookup_inc (f : Family κ ν) (k j : κ) :
    Assoc.lookup j (f.inc k) = if j = k then (Assoc.lookup j f).map fun x => (x.1, add64 x.2 1) else Assoc.lookup j f := by
  unfold Family.inc
  split
  · rename_i v n h
    rw [Assoc.lookup_put]
    split
    · rename_i e; subst e; simp [h]
    · rfl
  · rename_i h
    split
    · rename_i e; subst e; simp [h]
    · rfl

end Family

theorem directStep_eq (utf8 : Bytes → Bool) (f : Family DirectKey DirectKey) (c : Incoming) :
    (directStep utf8 f c).1 = match carried utf8 c with
      | some k => (f.create k k).inc k
      | none => f := by
  unfold directStep carried clientOf
  have hp : Endpoint.protocol = "transport.l5d.io/v1".toList := by decide +kernel
  cases c.tls with
  | none => rfl
  | passthru => rfl
  | established id p =>
    cases id with
    | none => rfl
    | some id =>
      cases p with
      | none => rfl
      | some p =>
        cases TransportHeader.call utf8 c.io c.reads with
        | error => dsimp only; split <;> rfl
        | accepted h q =>
          dsimp only
          rw [hp]
          by_cases e : p = "transport.l5d.io/v1".toList
          · rw [if_pos e, if_pos e]
          · rw [if_neg e, if_neg e]

/-- Each connection that carries a header is counted once, with its header and its client; nothing else is counted. -/
theorem C127_direct_counted (utf8 : Bytes → Bool) (cs : List Incoming) (h : Header) (id : ServerPolicy.Id) :
    Assoc.lookup (h, id) (directRun utf8 [] cs).1 =
      if ∃ c ∈ cs, Carries utf8 c h id then some ((h, id), cs.countP (fun c => Carries utf8 c h id) % 2 ^ 64) else none := by
  have gen : ∀ (cs : List Incoming) (f : Family DirectKey DirectKey),
      (∀ k v n, Assoc.lookup k f = some (v, n) → v = k ∧ n < 2 ^ 64) →
      Assoc.lookup (h, id) (directRun utf8 f cs).1 =
        if (Assoc.lookup (h, id) f).isSome ∨ ∃ c ∈ cs, carried utf8 c = some (h, id)
        then some ((h, id), (((Assoc.lookup (h, id) f).map Prod.snd).getD 0 +
          cs.countP (fun c => carried utf8 c = some (h, id))) % 2 ^ 64) else none := by
    intro cs
    induction cs with
    | nil =>
      intro f hf
      cases hl : Assoc.lookup (h, id) f with
      | none => simp [directRun, hl]
      | some x =>
        obtain ⟨v, n⟩ := x
        obtain ⟨rfl, hn⟩ := hf _ _ _ hl
        simp [directRun, hl, Nat.mod_eq_of_lt hn]
    | cons c cs ih =>
      intro f hf
      show Assoc.lookup (h, id) (directRun utf8 (directStep utf8 f c).1 cs).1 = _
      rw [directStep_eq]
      cases hc : carried utf8 c with
      | none =>
        dsimp only
        rw [ih f hf]
        simp [List.countP_cons, hc]
      | some k =>
        dsimp only
        have hl : ∀ j, Assoc.lookup j ((f.create k k).inc k) =
            if j = k then some (k, add64 (((Assoc.lookup j f).map Prod.snd).getD 0) 1) else Assoc.lookup j f := by
          intro j
          rw [lookup_inc, lookup_create]
          split
          · rename_i e; subst e
            cases hj : Assoc.lookup j f with
            | none => rfl
            | some x =>
              obtain ⟨v, n⟩ := x
              obtain ⟨rfl, _⟩ := hf _ _ _ hj
              rfl
          · rfl
        rw [ih _ (by
          intro j v n hj
          rw [hl] at hj
          split at hj
          · rename_i e; subst e
            cases hj
            exact ⟨rfl, Nat.mod_lt _ (by decide)⟩
          · exact hf _ _ _ hj), hl]
        by_cases e : (h, id) = k
        · subst e
          simp only [if_true, Option.isSome_some, true_or, List.mem_cons, exists_eq_or_imp, hc, List.countP_cons,
            decide_true, or_true, Option.map_some, Option.getD_some, add64]
          congr 2
          rw [Nat.mod_add_mod]
          congr 1
          omega
        · have e' : ¬ (some k = some (h, id)) := fun x => e (Option.some.inj x).symm
          simp only [if_neg e, List.mem_cons, exists_eq_or_imp, hc, List.countP_cons, e', false_or, decide_false,
            Bool.false_eq_true, if_false, Nat.add_zero]
  rw [gen cs [] (by intro k v n hk; cases hk)]
  simp only [Assoc.lookup, carried_iff, Option.isSome_none, Bool.false_eq_true, false_or, Option.map_none, Option.getD_none, Nat.zero_add]

/-- Counting changes nothing about where connections go. -/
theorem C127_direct_transparent (utf8 : Bytes → Bool) (f : Family DirectKey DirectKey) (cs : List Incoming) :
    (directRun utf8 f cs).2 = cs.map fun c => Endpoint.direct utf8 c.tls c.own c.io c.reads := by
  induction cs generalizing f with
  | nil => rfl
  | cons c cs ih =>
    show (directStep utf8 f c).2 :: (directRun utf8 (directStep utf8 f c).1 cs).2 = _
    rw [ih, List.map_cons]
    congr 1
    unfold directStep Endpoint.direct
    cases clientOf c.tls with
    | none => rfl
    | some id => cases TransportHeader.call utf8 c.io c.reads <;> rfl

/-- The connections that are counted are those that are not refused. -/
theorem C127_direct_counts_all (utf8 : Bytes → Bool) (c : Incoming) :
    Endpoint.direct utf8 c.tls c.own c.io c.reads ≠ .refused ↔ ∃ h id, Carries utf8 c h id := by
  have hp : Endpoint.protocol = "transport.l5d.io/v1".toList := by decide +kernel
  have hd : ∀ own id h p, dispatch own id h p ≠ .refused := by
    intro own id h p
    unfold dispatch
    cases h.name with
    | some n => exact Direct.noConfusion
    | none => cases h.protocol <;> exact Direct.noConfusion
  simp only [← carried_iff]
  unfold Endpoint.direct carried clientOf
  rw [hp]
  generalize "transport.l5d.io/v1".toList = w
  cases c.tls with
  | none => simp
  | passthru => simp
  | established id p =>
    cases id with
    | none => simp
    | some id =>
      cases p with
      | none => simp
      | some p =>
        by_cases e : p = w
        · cases TransportHeader.call utf8 c.io c.reads with
          | error => simp [e]
          | accepted h q => simp [e, hd]
        · cases TransportHeader.call utf8 c.io c.reads <;> simp [e]

/-! ### Different series look different -/

theorem byte_no_colon (st st' : Dns.Scan) (c : Char) (h : st.byte c = some st') : c ≠ ':' := by
  rintro rfl
  have hd : Char.isDigit ':' = false := by decide
  have ha : Char.isAlpha ':' = false := by decide
  simp [Dns.Scan.byte, hd, ha] at h

theorem bytes_no_colon (st st' : Dns.Scan) (s : Str) (h : st.bytes s = some st') : ':' ∉ s := by
  induction s generalizing st with
  | nil => simp
  | cons x s ih =>
    simp only [Dns.Scan.bytes, Option.bind_eq_some_iff] at h
    obtain ⟨st1, h1, h2⟩ := h
    intro hc
    simp only [List.mem_cons] at hc
    rcases hc with rfl | hc
    · exact byte_no_colon _ _ _ h1 rfl
    · exact ih _ h2 hc

theorem name_chars (s n : Str) (h : Dns.Name.tryFrom s = some n) : n ≠ [] ∧ ':' ∉ n := by
  have h' := Dns.C33_idempotent s n h
  refine ⟨(TransportHeader.name_parts n n h').2.2, ?_⟩
  have hv : Dns.isValid n = true := by
    simp only [Dns.Name.tryFrom, Dns.NameRef.tryFrom] at h'
    cases hv : Dns.isValid n with
    | true => rfl
    | false => simp [hv] at h'
  unfold Dns.isValid at hv
  split at hv
  · cases hv
  split at hv
  · cases hv
  cases hs : Dns.Scan.bytes ⟨0, false, false⟩ n with
  | none => simp [hs] at hv
  | some st => exact bytes_no_colon _ _ _ hs

theorem call_name (utf8 : Bytes → Bool) (io : Inner) (reads : List ReadAnswer) (h : Header) (p : PrefixedIo) (n : Str)
    (hc : TransportHeader.call utf8 io reads = .accepted h p) (hn : h.name = some n) : ∃ s, Dns.Name.tryFrom s = some n := by
  have hdec : ∃ msg, TransportHeader.decode utf8 msg = some h := by
    unfold TransportHeader.call at hc
    split at hc
    · rename_i h' p' hr
      cases hc
      unfold TransportHeader.readPrefaced at hr
      repeat' split at hr
      all_goals first
        | exact TransportHeader.ReadOut.noConfusion hr
        | (dsimp only at hr; split at hr
           · exact TransportHeader.ReadOut.noConfusion hr
           · split at hr
             · exact TransportHeader.ReadOut.noConfusion hr
             · exact TransportHeader.ReadOut.noConfusion hr
             · exact TransportHeader.ReadOut.noConfusion hr
             · split at hr
               · exact TransportHeader.ReadOut.noConfusion hr
               · rename_i hd; injection hr with e _; subst e; exact ⟨_, hd⟩)
    · cases hc
  obtain ⟨msg, hd⟩ := hdec
  unfold TransportHeader.decode at hd
  split at hd
  · cases hd
  · rename_i pr _
    dsimp only at hd
    split at hd
    · cases hd
    · rename_i name he
      split at hd
      · cases hd
      · cases hd
        dsimp only at hn
        subst hn
        split at he
        · cases he
        · rw [Option.map_eq_some_iff] at he
          obtain ⟨m, hm, e⟩ := he
          cases e
          exact ⟨_, hm⟩

theorem text_inj (a b : ServerPolicy.Id) (ha : Named a) (hb : Named b) (h : a.text = b.text) : a = b := by
  cases a with
  | dns n =>
    cases b with
    | dns m => exact congrArg _ h
    | uri u =>
      obtain ⟨s, hs⟩ := ha
      exact absurd (by rw [show n = u from h]; exact hb) (name_chars s n hs).2
  | uri u =>
    cases b with
    | uri v => exact congrArg _ h
    | dns n =>
      obtain ⟨s, hs⟩ := hb
      exact absurd (by rw [← show u = n from h]; exact ha) (name_chars s n hs).2

/-- Connections that differ in their header or their client are counted in series with different labels. -/
theorem C127_direct_series (utf8 : Bytes → Bool) (c c' : Incoming) (h h' : Header) (id id' : ServerPolicy.Id)
    (hc : Carries utf8 c h id) (hc' : Carries utf8 c' h' id') (hi : Named id) (hi' : Named id')
    (heq : directLabels (h, id) = directLabels (h', id')) : h = h' ∧ id = id' := by
  obtain ⟨_, p, hp⟩ := hc
  obtain ⟨_, p', hp'⟩ := hc'
  simp only [directLabels, List.cons.injEq, Prod.mk.injEq, true_and, and_true] at heq
  obtain ⟨e1, e2, e3, e4⟩ := heq
  refine ⟨?_, text_inj _ _ hi hi' e4⟩
  have hport := Metrics.decimal_inj e2
  have hname : h.name = h'.name := by
    have ne : ∀ n s, Dns.Name.tryFrom s = some n → n ≠ [] := fun n s hs => (name_chars s n hs).1
    cases hn : h.name with
    | none =>
      cases hn' : h'.name with
      | none => rfl
      | some n =>
        rw [hn, hn'] at e3
        obtain ⟨s, hs⟩ := call_name _ _ _ _ _ _ hp' hn'
        exact absurd e3.symm (ne _ _ hs)
    | some n =>
      cases hn' : h'.name with
      | none =>
        rw [hn, hn'] at e3
        obtain ⟨s, hs⟩ := call_name _ _ _ _ _ _ hp hn
        exact absurd e3 (ne _ _ hs)
      | some m =>
        rw [hn, hn'] at e3
        exact congrArg some e3
  have hproto : h.protocol = h'.protocol := by
    revert e1
    cases h.protocol with
    | none => cases h'.protocol with
      | none => intro _; rfl
      | some q => cases q <;> (intro e; exact absurd e (by decide))
    | some q =>
      cases h'.protocol with
      | none => cases q <;> (intro e; exact absurd e (by decide))
      | some q' => cases q <;> cases q' <;> first
        | (intro _; rfl)
        | (intro e; exact absurd e (by decide))
  cases h; cases h'
  simp only at hport hname hproto
  subst hport hname hproto
  rfl

/-! ### Outbound connections -/

theorem Out.run_snoc (s : Out) (ops : List OutOp) (o : OutOp) :
    s.run (ops ++ [o]) = (((s.run ops).1.step o).1, (s.run ops).2 ++ [(o, ((s.run ops).1.step o).2)]) := by
  induction ops generalizing s with
  | nil => rfl
  | cons a ops ih => simp [Out.run, ih]

theorem built_append (a c : List (OutOp × Option Outbound.Served)) : built (a ++ c) = built a ++ built c := List.filterMap_append

theorem servedFor_append (ds : List Outbound.Discovered) (k : OutKey) (a c : List (OutOp × Option Outbound.Served)) :
    servedFor ds k (a ++ c) = servedFor ds k a + servedFor ds k c := List.countP_append

theorem servedFor_later (ds more : List Outbound.Discovered) (k : OutKey) (tr : List (OutOp × Option Outbound.Served))
    (h : ∀ i f r, (OutOp.call i f, some r) ∈ tr → i < ds.length) : servedFor (ds ++ more) k tr = servedFor ds k tr := by
  unfold servedFor
  refine List.countP_congr fun x hx => ?_
  obtain ⟨o, r⟩ := x
  match o, r, hx with
  | .call i f, some r, hx =>
    dsimp only
    rw [List.getElem?_append_left (h i f r hx)]
  | .call i f, none, _ => exact Iff.rfl
  | .build d, _, _ => exact Iff.rfl

theorem key_iff (d : Outbound.Discovered) (k : OutKey) :
    (Outbound.kindOf d == k.1 && d.policy.parent.group == k.2.group && d.policy.parent.kind == k.2.kind &&
      d.policy.parent.name == k.2.name) = decide (outKey (labelsOf d) = k) := by
  obtain ⟨a, g, b, c⟩ := k
  rw [Bool.eq_iff_iff]
  simp [outKey, labelsOf, metaKey, and_assoc]

structure Inv (s : Out) (tr : List (OutOp × Option Outbound.Served)) : Prop where
  services : s.services = (built tr).map fun d => (outKey (labelsOf d), Outbound.kindOf d)
  calls : ∀ i f r, (OutOp.call i f, some r) ∈ tr → i < (built tr).length
  family : ∀ k, Assoc.lookup k s.family =
    ((built tr).find? fun d => outKey (labelsOf d) = k).map fun d => (labelsOf d, servedFor (built tr) k tr % 2 ^ 64)

theorem inv (ops : List OutOp) : Inv (Out.init.run ops).1 (Out.init.run ops).2 := by
  induction ops using Verif.snoc_induction with
  | nil => exact ⟨rfl, nofun, fun k => rfl⟩
  | snoc ops o ih =>
    rw [Out.run_snoc]
    generalize (Out.init.run ops).1 = s at ih
    generalize (Out.init.run ops).2 = tr at ih
    cases o with
    | build d =>
      have hb : built (tr ++ [(OutOp.build d, none)]) = built tr ++ [d] := built_append _ _
      have hs : ∀ k, servedFor (built tr ++ [d]) k (tr ++ [(OutOp.build d, none)]) = servedFor (built tr) k tr := by
        intro k
        rw [servedFor_append, servedFor_later _ _ _ _ ih.calls]
        rfl
      refine ⟨?_, ?_, ?_⟩
      · show s.services ++ _ = _
        rw [Out.step, hb, ih.services, List.map_append]
        rfl
      · intro i f r hm
        rw [Out.step, hb, List.length_append]
        rcases List.mem_append.1 hm with hm | hm
        · exact Nat.lt_of_lt_of_le (ih.calls i f r hm) (Nat.le_add_right _ _)
        · simp [Out.step] at hm
      · intro k
        show Assoc.lookup k (s.family.create _ _) = _
        rw [Out.step, hb, hs, lookup_create, List.find?_append, ih.family]
        cases hf : (built tr).find? fun d => outKey (labelsOf d) = k with
        | some x =>
          simp only [Option.map_some, Option.getD_some, ite_self, Option.some_or]
        | none =>
          have h0 : servedFor (built tr) k tr = 0 := by
            unfold servedFor
            rw [List.countP_eq_zero]
            intro x hx
            obtain ⟨o, r⟩ := x
            match o, r, hx with
            | .call i f, some r, hx =>
              dsimp only
              cases hi : (built tr)[i]? with
              | none => simp
              | some d' =>
                rw [Option.any_some, key_iff]
                exact List.find?_eq_none.1 hf d' (List.mem_of_getElem? hi)
            | .call i f, none, _ => exact Bool.false_ne_true
            | .build d, _, _ => exact Bool.false_ne_true
          rw [h0]
          by_cases e : k = outKey (labelsOf d)
          · subst e; simp
          · have e' : ¬ outKey (labelsOf d) = k := fun x => e x.symm
            simp [e, e']
    | call i f =>
      have hb : ∀ r, built (tr ++ [(OutOp.call i f, r)]) = built tr := by
        intro r
        rw [built_append]
        exact List.append_nil _
      have hget : s.services[i]? = ((built tr)[i]?).map fun d => (outKey (labelsOf d), Outbound.kindOf d) := by
        rw [ih.services, List.getElem?_map]
      cases hi : (built tr)[i]? with
      | none =>
        have hstep : s.step (.call i f) = (s, none) := by
          rw [hi, Option.map_none] at hget
          simp only [Out.step, hget]
        rw [hstep]
        refine ⟨by rw [hb]; exact ih.services, ?_, ?_⟩
        · intro j g r hm
          rw [hb]
          rcases List.mem_append.1 hm with hm | hm
          · exact ih.calls j g r hm
          · simp at hm
        · intro k
          rw [hb, servedFor_append, ih.family]
          rfl
      | some d =>
        have hstep : s.step (.call i f) =
            ({ s with family := s.family.inc (outKey (labelsOf d)) }, some (Outbound.served (Outbound.kindOf d) f)) := by
          rw [hi, Option.map_some] at hget
          simp only [Out.step, hget]
        rw [hstep]
        refine ⟨by rw [hb]; exact ih.services, ?_, ?_⟩
        · intro j g r hm
          rw [hb]
          rcases List.mem_append.1 hm with hm | hm
          · exact ih.calls j g r hm
          · simp at hm
            obtain ⟨⟨rfl, rfl⟩, _⟩ := hm
            exact (List.getElem?_eq_some_iff.1 hi).1
        · intro k
          rw [hb, servedFor_append, lookup_inc, ih.family]
          have hone : servedFor (built tr) k [(OutOp.call i f, some (Outbound.served (Outbound.kindOf d) f))] =
              if k = outKey (labelsOf d) then 1 else 0 := by
            unfold servedFor
            rw [List.countP_cons, List.countP_nil]
            simp only [hi, Option.any_some, key_iff]
            by_cases e : k = outKey (labelsOf d)
            · subst e; simp
            · have e' : ¬ outKey (labelsOf d) = k := fun x => e x.symm
              simp [e, e']
          rw [hone]
          by_cases e : k = outKey (labelsOf d)
          · subst e
            simp only [if_true, Option.map_map]
            congr 1
            funext x
            simp [add64]
          · simp only [if_neg e, Nat.add_zero]

/-- Each outbound connection is counted once, in the series of the protocol and the parent's group, kind and name its service was built for. The series
is there as soon as such a service is, and has the labels of the first. -/
theorem C127_outbound_counted (ops : List OutOp) (k : OutKey) :
    let tr := (Out.init.run ops).2
    Assoc.lookup k (Out.init.run ops).1.family =
      ((built tr).find? fun d => outKey (labelsOf d) = k).map fun d => (labelsOf d, servedFor (built tr) k tr % 2 ^ 64) :=
  (inv ops).family k

/-- A connection is served by the protocol it is counted for. -/
theorem C127_outbound_protocol (ops : List OutOp) (i : Nat) (found : HttpDetect.Detection) (d : Outbound.Discovered)
    (hd : (built (Out.init.run ops).2)[i]? = some d) :
    ((Out.init.run ops).1.step (.call i found)).2 = some (Outbound.served (Outbound.kindOf d) found) := by
  have hget : (Out.init.run ops).1.services[i]? = some (outKey (labelsOf d), Outbound.kindOf d) := by
    rw [(inv ops).services, List.getElem?_map, hd]
    rfl
  simp only [Out.step, hget]

/-- Different series have different labels. -/
theorem C127_outbound_series (a b : OutLabels) (h : outLabels a = outLabels b) : outKey a = outKey b := by
  simp only [outLabels, List.cons.injEq, Prod.mk.injEq, true_and, and_true] at h
  obtain ⟨h1, hg, hk, _, hn, _⟩ := h
  have h1 : a.1 = b.1 := by
    revert h1
    cases a.1 <;> cases b.1 <;> first
      | (intro _; rfl)
      | (intro e; exact absurd e (by decide))
  simp [outKey, metaKey, h1, hg, hk, hn]

/-- Parents of the same group, kind and name are counted together, whatever their namespaces, and shown with the first's. -/
theorem C127_limit_namespaces_share : ∃ (a b : Outbound.Discovered) (found : HttpDetect.Detection),
    a.policy.parent.ns ≠ b.policy.parent.ns ∧
      ((Out.init.run [.build a, .build b, .call 1 found]).1.family.map fun x => (outLabels x.2.1, x.2.2)) =
        [(outLabels (labelsOf a), 1)] :=
  let svc (ns : Str) : ClientPolicy.Meta := .resource "core".toList "Service".toList "web".toList ns none (some 80)
  ⟨⟨none, ⟨svc "a".toList, .opaq none, []⟩⟩, ⟨none, ⟨svc "b".toList, .opaq none, []⟩⟩, .notHttp, by decide +kernel, by decide +kernel⟩

/-! ## Examples -/

def exConn (name : Str) (more : Bytes) : Incoming :=
  ⟨.established (some (.dns name)) (some "transport.l5d.io/v1".toList), .v4 0x0a000002 4143,
    ⟨TransportHeader.preface ++ [0, 0, 0, 3, 8, 144, 63] ++ more, []⟩, [.upTo 100]⟩

example : Carries (fun _ => true) (exConn "a.b".toList [1]) ⟨8080, none, none⟩ (.dns "a.b".toList) ∧ Named (.dns "a.b".toList) :=
  ⟨⟨rfl, ⟨[1], ⟨[], []⟩⟩, by decide +kernel⟩, "a.b".toList, by decide +kernel⟩

example : (directRun (fun _ => true) [] [exConn "a.b".toList [], exConn "c".toList [], { exConn "a.b".toList [] with tls := .none },
    exConn "a.b".toList [1, 2]]).1.map (fun x => (directLabels x.2.1, x.2.2)) =
      [([("session_protocol", []), ("target_port", "8080".toList), ("target_name", []), ("client_id", "a.b".toList)], 2),
       ([("session_protocol", []), ("target_port", "8080".toList), ("target_name", []), ("client_id", "c".toList)], 1)] := by
  decide +kernel

example : (built (Out.init.run [.build ⟨none, ⟨.default [], .opaq none, []⟩⟩, .call 0 .notHttp]).2).length = 1 := rfl

end Verif.ConnCount
