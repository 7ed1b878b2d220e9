import Verif.Tap.Match

/-!
# What a tap looks for: the properties

C88: the requests a tap selects are those its message describes, and a message is refused iff it is malformed.
-/

namespace Verif.Tap

open Verif.ServerPolicy (Ip IpNet)

/-! ## Specification -/

namespace Spec

/-- The first `len` of the `width` bits of the two addresses are the same. -/
def SamePrefix (width len a b : Nat) : Prop := a / 2 ^ (width - len) = b / 2 ^ (width - len)

/-- An end point is as the message says: in the range of ports, or the one port if only one bound is given; in the network. -/
def Tcp (ep : Ip × Nat) : PbTcp → Prop
  | .ports min max => (if min = 0 then max else min) ≤ ep.2 ∧ ep.2 ≤ (if max = 0 then min else max)
  | .netmask ip mask =>
    match ip, ep.1 with
    | some (.v4 a), .v4 b => SamePrefix 32 mask a b
    | some (.v6 a), .v6 b => SamePrefix 128 mask a b
    | _, _ => False

/-- A text is as the message says. -/
def Text (s : Str) : StrMatch → Prop
  | .exact t => s = t
  | .prefix_ p => ∃ rest, s = p ++ rest

/-- The request's scheme is the message's; a request without one is taken for http. -/
def Scheme (s : Option Str) : PbScheme → Prop
  | .registered n => (n = 0 ∧ s.getD "http".toList = "http".toList) ∨ (n = 1 ∧ s.getD "http".toList = "https".toList)
  | .unregistered t => t = some (s.getD "http".toList)

/-- A request is as the message says. -/
def Http (r : Req) : PbHttp → Prop
  | .scheme m => ∃ s, m = some s ∧ Scheme r.scheme s
  | .method m => m = some (some r.method)
  | .authority m => ∃ t a, m = some t ∧ r.authority = some a ∧ Text a t
  | .path m => ∃ t, m = some t ∧ Text r.path t

/-- A label has this value. -/
def Label (labels : Option Labels) (key value : Str) : Prop := ∃ l, labels = some l ∧ Assoc.lookup key l = some value

/-- What a message says of a request. -/
def Means (r : Req) : PbMatch → Prop
  | .all ms => ∀ m, (h : some m ∈ ms) → Means r m
  | .any ms => ∃ m, ∃ (_ : some m ∈ ms), Means r m
  | .not none => False
  | .not (some m) => ¬ Means r m
  | .source m => ∃ t ep, m = some t ∧ r.src = some ep ∧ Tcp ep t
  | .destination m => ∃ t ep, m = some t ∧ r.dst = some ep ∧ Tcp ep t
  | .destinationLabel k v => Label r.dstLabels k v
  | .routeLabel k v => Label r.routeLabels k v
  | .http m => ∃ h, m = some h ∧ Http r h
termination_by m => sizeOf m
decreasing_by
  all_goals first
    | (have := List.sizeOf_lt_of_mem h; simp at this ⊢; omega)
    | (rename_i h; have := List.sizeOf_lt_of_mem h; simp at this ⊢; omega)
    | (simp; omega)

/-- A message about an end point that makes sense. -/
def OkTcp : PbTcp → Prop
  | .ports min max =>
    (min ≠ 0 ∨ max ≠ 0) ∧ min ≤ 65535 ∧ max ≤ 65535 ∧ (min ≠ 0 → max ≠ 0 → min ≤ max)
  | .netmask ip mask =>
    match ip with
    | none => False
    | some (.v4 _) => 0 < mask ∧ mask ≤ 32
    | some (.v6 _) => 0 < mask ∧ mask ≤ 128

/-- A message about HTTP that makes sense. -/
def OkHttp : PbHttp → Prop
  | .scheme m => m = some (.registered 0) ∨ m = some (.registered 1) ∨ ∃ s, m = some (.unregistered (some s))
  | .method m => ∃ s, m = some (some s)
  | .authority m => ∃ t, m = some t
  | .path m => ∃ t, m = some t

/-- A message that makes sense. Parts of sequences may be empty, and are then left out. -/
def Ok : PbMatch → Prop
  | .all ms => ∀ m, (h : some m ∈ ms) → Ok m
  | .any ms => ∀ m, (h : some m ∈ ms) → Ok m
  | .not none => False
  | .not (some m) => Ok m
  | .source m => ∃ t, m = some t ∧ OkTcp t
  | .destination m => ∃ t, m = some t ∧ OkTcp t
  | .destinationLabel k v => k ≠ [] ∧ v ≠ []
  | .routeLabel k v => k ≠ [] ∧ v ≠ []
  | .http m => ∃ h, m = some h ∧ OkHttp h
termination_by m => sizeOf m
decreasing_by
  all_goals first
    | (have := List.sizeOf_lt_of_mem h; simp at this ⊢; omega)
    | (simp; omega)

end Spec

/-! ## Proofs -/

theorem prefix_iff (width len a b : Nat) :
    (ServerPolicy.networkAddr (width - len) a ≤ b ∧ b ≤ ServerPolicy.broadcastAddr (width - len) a) ↔
      Spec.SamePrefix width len a b := by
  unfold ServerPolicy.broadcastAddr ServerPolicy.networkAddr Spec.SamePrefix
  generalize width - len = k
  have hp : 0 < 2 ^ k := Nat.pow_pos (by decide)
  have ha := Nat.div_add_mod a (2 ^ k)
  have hb := Nat.div_add_mod b (2 ^ k)
  have hma := Nat.mod_lt a hp
  have hmb := Nat.mod_lt b hp
  constructor
  · rintro ⟨h1, h2⟩
    apply Nat.le_antisymm
    · rcases Nat.lt_or_ge (b / 2 ^ k) (a / 2 ^ k) with h | h
      · exfalso
        have := Nat.mul_le_mul_left (2 ^ k) h
        rw [Nat.mul_succ] at this
        omega
      · exact h
    · rcases Nat.lt_or_ge (a / 2 ^ k) (b / 2 ^ k) with h | h
      · exfalso
        have := Nat.mul_le_mul_left (2 ^ k) h
        rw [Nat.mul_succ] at this
        omega
      · exact h
  · intro h
    rw [h] at ha
    omega

theorem readTcp_spec {m : Option PbTcp} {c : TcpMatch} (h : readTcp m = .ok c) (ep : Ip × Nat) :
    c.matches ep = true ↔ ∃ t, m = some t ∧ Spec.Tcp ep t := by
  cases m with
  | none => simp [readTcp] at h
  | some t =>
    cases t with
    | ports a b =>
      simp only [readTcp] at h
      simp only [Option.some.injEq, exists_eq_left', Spec.Tcp]
      generalize (if a = 0 then b else a) = lo at h ⊢
      generalize (if b = 0 then a else b) = hi at h ⊢
      split at h
      · cases h
      · split at h
        · cases h
        · split at h
          · cases h
          · cases h
            simp [TcpMatch.matches]
    | netmask ip mask =>
      simp only [readTcp, readNet] at h
      split at h
      · cases h
      · split at h
        · cases h
        · cases ip with
          | none => cases h
          | some ip =>
            cases ip with
            | v4 a =>
              simp only at h
              split at h <;> cases h
              obtain ⟨ip, port⟩ := ep
              cases ip <;> simp [TcpMatch.matches, Spec.Tcp, IpNet.contains, ← prefix_iff]
            | v6 a =>
              simp only at h
              split at h <;> cases h
              obtain ⟨ip, port⟩ := ep
              cases ip <;> simp [TcpMatch.matches, Spec.Tcp, IpNet.contains, ← prefix_iff]

theorem readTcp_ok (m : Option PbTcp) : (∃ c, readTcp m = .ok c) ↔ ∃ t, m = some t ∧ Spec.OkTcp t := by
  cases m with
  | none => simp [readTcp]
  | some t =>
    cases t with
    | ports a b =>
      simp only [readTcp, Option.some.injEq, exists_eq_left', Spec.OkTcp]
      by_cases ha : a = 0 <;> by_cases hb : b = 0 <;> simp only [ha, hb, if_true, if_false, true_or, or_true, or_self] <;>
        (repeat' split) <;> simp <;> omega
    | netmask ip mask =>
      simp only [readTcp, readNet, Option.some.injEq, exists_eq_left', Spec.OkTcp]
      rcases ip with _ | (a | a)
      · by_cases h0 : mask = 0
        · simp [h0]
        · by_cases h1 : mask > 255 <;> simp [h0, h1]
      · by_cases h0 : mask = 0
        · simp [h0]
        · by_cases h1 : mask > 255
          · simp [h0, h1]; omega
          · by_cases h2 : mask ≤ 32
            · simp [h0, h1, h2]; omega
            · simp [h0, h1, h2]
      · by_cases h0 : mask = 0
        · simp [h0]
        · by_cases h1 : mask > 255
          · simp [h0, h1]; omega
          · by_cases h2 : mask ≤ 128
            · simp [h0, h1, h2]; omega
            · simp [h0, h1, h2]

theorem str_spec (m : StrMatch) (s : Str) : m.matches s = true ↔ Spec.Text s m := by
  cases m with
  | exact t => simp [StrMatch.matches, Spec.Text]
  | prefix_ p => simp [StrMatch.matches, Spec.Text, Option.isSome_iff_exists, Text.stripPrefix_eq_some]

theorem readHttp_spec {m : Option PbHttp} {c : HttpMatch} (h : readHttp m = .ok c) (r : Req) :
    c.matches r = true ↔ ∃ t, m = some t ∧ Spec.Http r t := by
  cases m with
  | none => cases h
  | some t =>
    simp only [Option.some.injEq, exists_eq_left']
    cases t with
    | scheme s =>
      cases s with
      | none => cases h
      | some s =>
        simp only [Spec.Http, Option.some.injEq, exists_eq_left']
        cases s with
        | registered n =>
          simp only [readHttp, readScheme] at h
          split at h
          · rename_i hn
            cases h
            simp only [HttpMatch.matches, Spec.Scheme, hn, beq_iff_eq, true_and, @eq_comm _ "http".toList]
            simp
          · split at h
            · rename_i hn hn'
              cases h
              simp only [HttpMatch.matches, Spec.Scheme, hn', beq_iff_eq, true_and, @eq_comm _ "https".toList]
              simp
            · cases h
        | unregistered s =>
          cases s with
          | none => cases h
          | some s => cases h; simp [HttpMatch.matches, Spec.Scheme]
    | method m =>
      rcases m with _ | _ | m
      · cases h
      · cases h
      · cases h; simp [HttpMatch.matches, Spec.Http]
    | authority m =>
      cases m with
      | none => cases h
      | some m =>
        cases h
        cases ha : r.authority <;> simp [HttpMatch.matches, Spec.Http, ha, str_spec]
    | path m =>
      cases m with
      | none => cases h
      | some m => cases h; simp [HttpMatch.matches, Spec.Http, str_spec]

theorem readHttp_ok (m : Option PbHttp) : (∃ c, readHttp m = .ok c) ↔ ∃ t, m = some t ∧ Spec.OkHttp t := by
  cases m with
  | none => simp [readHttp]
  | some t =>
    simp only [Option.some.injEq, exists_eq_left']
    cases t with
    | scheme s =>
      rcases s with _ | (n | s)
      · simp [readHttp, Spec.OkHttp]
      · simp only [readHttp, readScheme, Spec.OkHttp]
        split
        · simp_all
        · split <;> simp_all
      · cases s <;> simp [readHttp, readScheme, Spec.OkHttp]
    | method m => rcases m with _ | _ | m <;> simp [readHttp, Spec.OkHttp]
    | authority m => cases m <;> simp [readHttp, Spec.OkHttp, orEmpty, Except.map]
    | path m => cases m <;> simp [readHttp, Spec.OkHttp, orEmpty, Except.map]

theorem map_ok {α β : Type} {f : α → β} {x : Except Invalid α} {b : β} :
    x.map f = .ok b ↔ ∃ a, x = .ok a ∧ f a = b := by
  cases x <;> simp [Except.map]

theorem label_spec (k v : Str) (l : Option Labels) : labelMatches k v l = true ↔ Spec.Label l k v := by
  cases l <;> simp [labelMatches, Spec.Label]

theorem readSeq_spec {ms : List (Option PbMatch)} {cs : List Match} (r : Req) (h : readSeq ms = .ok cs)
    (ih : ∀ m, some m ∈ ms → ∀ c, readMatch m = .ok c → (c.matches r = true ↔ Spec.Means r m)) :
    (Match.allOf r cs = true ↔ ∀ m, some m ∈ ms → Spec.Means r m) ∧
      (Match.anyOf r cs = true ↔ ∃ m, some m ∈ ms ∧ Spec.Means r m) := by
  induction ms generalizing cs with
  | nil => cases h; simp [Match.allOf, Match.anyOf]
  | cons m ms ihm =>
    cases m with
    | none =>
      have := ihm (cs := cs) (by simpa [readSeq] using h) (fun m hm => ih m (List.mem_cons_of_mem _ hm))
      simpa using this
    | some m =>
      simp only [readSeq] at h
      split at h
      · cases h
      · rename_i c hc
        split at h
        · cases h
        · rename_i cs' hcs
          cases h
          have h1 := ih m (by simp) c hc
          have h2 := ihm hcs (fun m hm => ih m (List.mem_cons_of_mem _ hm))
          simp only [Match.allOf, Match.anyOf, Bool.and_eq_true, Bool.or_eq_true, h1, h2.1, h2.2, List.mem_cons,
            Option.some.injEq]
          constructor
          · constructor
            · rintro ⟨a, b⟩ x (rfl | hx)
              · exact a
              · exact b x hx
            · intro a; exact ⟨a m (.inl rfl), fun x hx => a x (.inr hx)⟩
          · constructor
            · rintro (a | ⟨x, hx, a⟩)
              · exact ⟨m, .inl rfl, a⟩
              · exact ⟨x, .inr hx, a⟩
            · rintro ⟨x, rfl | hx, a⟩
              · exact .inl a
              · exact .inr ⟨x, hx, a⟩

theorem readSeq_ok (ms : List (Option PbMatch)) :
    (∃ cs, readSeq ms = .ok cs) ↔ ∀ m, some m ∈ ms → ∃ c, readMatch m = .ok c := by
  induction ms with
  | nil => simp [readSeq]
  | cons m ms ih =>
    cases m with
    | none => simpa [readSeq] using ih
    | some m =>
      simp only [readSeq, List.mem_cons, Option.some.injEq]
      cases hc : readMatch m with
      | error e =>
        simp only [reduceCtorEq, exists_false, false_iff]
        intro h
        obtain ⟨c, h⟩ := h m (.inl rfl)
        rw [hc] at h; cases h
      | ok c =>
        simp only
        constructor
        · rintro ⟨cs, h⟩ x (rfl | hx)
          · exact ⟨c, hc⟩
          · refine ih.1 ?_ x hx
            cases hs : readSeq ms with
            | error e => rw [hs] at h; cases h
            | ok cs' => exact ⟨cs', rfl⟩
        · intro h
          obtain ⟨cs, hs⟩ := ih.2 fun x hx => h x (.inr hx)
          rw [hs]; exact ⟨_, rfl⟩

/-- C88: the requests a tap selects are those its message describes. -/
theorem C88_selects {m : PbMatch} {c : Match} (h : readOne (some m) = .ok c) (r : Req) :
    c.matches r = true ↔ Spec.Means r m := by
  rw [readOne] at h
  induction hs : sizeOf m using Nat.strongRecOn generalizing m c with
  | ind n ih =>
  subst hs
  cases m with
  | all ms =>
    rw [readMatch, map_ok] at h
    obtain ⟨cs, h, rfl⟩ := h
    have := (readSeq_spec r h fun m hm c hc => ih (sizeOf m)
      (by have := List.sizeOf_lt_of_mem hm; simp at this ⊢; omega) hc rfl).1
    rw [Match.matches, this, Spec.Means]
  | any ms =>
    rw [readMatch, map_ok] at h
    obtain ⟨cs, h, rfl⟩ := h
    have := (readSeq_spec r h fun m hm c hc => ih (sizeOf m)
      (by have := List.sizeOf_lt_of_mem hm; simp at this ⊢; omega) hc rfl).2
    rw [Match.matches, this, Spec.Means]
    simp
  | not m =>
    rw [readMatch, map_ok] at h
    obtain ⟨c, h, rfl⟩ := h
    cases m with
    | none => cases h
    | some m =>
      have := ih (sizeOf m) (by simp; omega) h rfl
      rw [Match.matches, Spec.Means, ← this]
      simp
  | source m =>
    rw [readMatch, map_ok] at h
    obtain ⟨c, h, rfl⟩ := h
    rw [Match.matches, Spec.Means]
    cases hr : r.src with
    | none => simp
    | some ep => simp [readTcp_spec h]
  | destination m =>
    rw [readMatch, map_ok] at h
    obtain ⟨c, h, rfl⟩ := h
    rw [Match.matches, Spec.Means]
    cases hr : r.dst with
    | none => simp
    | some ep => simp [readTcp_spec h]
  | destinationLabel k v =>
    rw [readMatch, map_ok] at h
    obtain ⟨l, h, rfl⟩ := h
    unfold readLabel at h
    split at h <;> cases h
    rw [Match.matches, Spec.Means, label_spec]
  | routeLabel k v =>
    rw [readMatch, map_ok] at h
    obtain ⟨l, h, rfl⟩ := h
    unfold readLabel at h
    split at h <;> cases h
    rw [Match.matches, Spec.Means, label_spec]
  | http m =>
    rw [readMatch, map_ok] at h
    obtain ⟨c, h, rfl⟩ := h
    rw [Match.matches, Spec.Means, readHttp_spec h]

theorem map_ok_iff {α β : Type} {f : α → β} {x : Except Invalid α} : (∃ b, x.map f = .ok b) ↔ ∃ a, x = .ok a := by
  cases x <;> simp [Except.map]

/-- C88: a message is accepted iff it makes sense. -/
theorem C88_accepts (m : Option PbMatch) : (∃ c, readOne m = .ok c) ↔ ∃ x, m = some x ∧ Spec.Ok x := by
  cases m with
  | none => simp [readOne]
  | some m =>
  simp only [Option.some.injEq, exists_eq_left', readOne]
  induction hs : sizeOf m using Nat.strongRecOn generalizing m with
  | ind n ih =>
  subst hs
  cases m with
  | all ms =>
    simp only [readMatch, map_ok_iff, readSeq_ok, Spec.Ok]
    exact forall_congr' fun m => forall_congr' fun hm =>
      ih (sizeOf m) (by have := List.sizeOf_lt_of_mem hm; simp at this ⊢; omega) m rfl
  | any ms =>
    simp only [readMatch, map_ok_iff, readSeq_ok, Spec.Ok]
    exact forall_congr' fun m => forall_congr' fun hm =>
      ih (sizeOf m) (by have := List.sizeOf_lt_of_mem hm; simp at this ⊢; omega) m rfl
  | not m =>
    cases m with
    | none => simp [readMatch, readOne, Spec.Ok, Except.map]
    | some m =>
      simp only [readMatch, map_ok_iff, readOne, Spec.Ok]
      exact ih (sizeOf m) (by simp; omega) m rfl
  | source m => simp only [readMatch, map_ok_iff, readTcp_ok, Spec.Ok]
  | destination m => simp only [readMatch, map_ok_iff, readTcp_ok, Spec.Ok]
  | destinationLabel k v =>
    simp only [readMatch, map_ok_iff, readLabel, Spec.Ok]
    cases k <;> cases v <;> simp
  | routeLabel k v =>
    simp only [readMatch, map_ok_iff, readLabel, Spec.Ok]
    cases k <;> cases v <;> simp
  | http m => simp only [readMatch, map_ok_iff, readHttp_ok, Spec.Ok]

/-- A request from 10.0.0.1:4000 to 10.1.2.3:80, and a tap of POST requests from outside 10.0.0.0/16 or to the paths below /a. -/
def exReq : Req where
  method := "GET".toList
  version := .h2
  scheme := some "https".toList
  uriAuthority := some "web".toList
  path := "/a/b".toList
  pathAndQuery := some "/a/b?c".toList
  headers := [("host", "web".toList), ("x", "y".toList)]
  outbound := true
  src := some (.v4 0x0a000001, 4000)
  srcTls := .none "loopback".toList
  dst := some (.v4 0x0a010203, 80)
  dstLabels := some [("pod".toList, "p".toList)]
  dstTls := .some "id".toList
  routeLabels := none

def exMatch : PbMatch :=
  .any [some (.all [some (.http (some (.method (some (some "POST".toList))))),
                    some (.not (some (.source (some (.netmask (some (.v4 0x0a000000)) 16)))))]),
        none,
        some (.http (some (.path (some (.prefix_ "/a".toList)))))]

example : ∃ c, readOne (some exMatch) = .ok c ∧ c.matches exReq = true :=
  ⟨_, rfl, by decide⟩

/-- A range with one bound is one port. -/
example : ∃ c, readOne (some (.destination (some (.ports 0 80)))) = .ok c ∧ c.matches exReq = true := ⟨_, rfl, by decide⟩

/-- C88, limit: an empty sequence is not refused: all requests are as it says, or none is. -/
theorem C88_limit_empty_sequences (r : Req) :
    (∃ c, readOne (some (.all [none])) = .ok c ∧ c.matches r = true) ∧
      (∃ c, readOne (some (.any [none])) = .ok c ∧ c.matches r = false) :=
  ⟨⟨.all [], rfl, rfl⟩, ⟨.any [], rfl, rfl⟩⟩

/-- C88, limit: no message selects all addresses of a family by a network, as a mask of no bits is refused. -/
theorem C88_limit_no_universal_network (ip : Option Ip) : readOne (some (.source (some (.netmask ip 0)))) = .error .empty := rfl

/-- C88, limit: the sense of `not` applies to what is missing too: a request whose source is not known is not from any network,
so it is "not from" all of them. -/
theorem C88_limit_unknown_is_not (r : Req) (h : r.src = none) (t : PbTcp) (ht : Spec.OkTcp t) :
    ∃ c, readOne (some (.not (some (.source (some t))))) = .ok c ∧ c.matches r = true := by
  obtain ⟨c, hc⟩ := (C88_accepts (some (.not (some (.source (some t)))))).2
    ⟨_, rfl, by rw [Spec.Ok, Spec.Ok]; exact ⟨t, rfl, ht⟩⟩
  refine ⟨c, hc, (C88_selects hc r).2 ?_⟩
  rw [Spec.Means, Spec.Means]
  rintro ⟨_, _, _, h', _⟩
  rw [h] at h'; cases h'

end Verif.Tap
