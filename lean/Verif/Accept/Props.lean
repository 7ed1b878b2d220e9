import Verif.Accept.Model
import Verif.Common.List

/-!
# C116: every connection is served once, as the one it is
-/

namespace Verif.Accept

open Verif.ServerPolicy (Ip)
open Verif.Addr (SocketAddr)

/-! ## Specification -/

/-- An IPv4 address that is written as an IPv6 address, `::ffff:a.b.c.d`, is that IPv4 address. -/
def plainIp : Ip → Ip
  | .v4 a => .v4 a
  | .v6 a => if 0xffff * 2 ^ 32 ≤ a ∧ a < 0x10000 * 2 ^ 32 then .v4 (a - 0xffff * 2 ^ 32) else .v6 a

/-- Whether an address is of IPv4. -/
def IsV4 (a : SocketAddr) : Prop := ∃ x, a.ip = .v4 x

/-- A connection can be served, and this is what it is served with. -/
structure Proper (c : Config) (l : Side) (s : Socket) (a : Addrs) (t : Tcp) : Prop where
  /-- The operating system does not lose the socket as it is handed around. -/
  whole : ∀ i, s.broken = some i → (if c.withOrig then 6 else 4) ≤ i
  /-- It is said to have come to the address of the listener it came to. -/
  server : some a.server = (match l with | .one => some c.local1 | .two => some (c.local2.getD c.local1))
  /-- It is said to come from its peer. -/
  client : ∃ p, s.peer = some p ∧ a.client.ip = plainIp p.ip ∧ a.client.port = p.port
  /-- Where it was meant to go is what the operating system says for the family of its peer, if it is asked. -/
  orig : if c.withOrig then
      ∃ o, a.orig = some o ∧ (IsV4 a.client → s.orig4 = some (some o)) ∧ (¬ IsV4 a.client → s.orig6 = some (some o))
    else a.orig = none
  /-- It is that connection. -/
  same : t.id = s.id
  /-- What can be set is set as configured. -/
  nodelay : t.nodelay = s.nodelayOk
  keepalive : t.keepalive = if s.keepaliveOk then some c.keepalive else none
  userTimeout : t.userTimeout = if s.timeoutOk then some c.userTimeout else none

/-- What is served of what a listener gives, in order: each connection that can be served, once; nothing of the others. -/
inductive ServedAs (c : Config) (l : Side) : List (Option Socket) → List (Addrs × Tcp) → Prop where
  | nil : ServedAs c l [] []
  | error {rs out} : ServedAs c l rs out → ServedAs c l (none :: rs) out
  | skip {s rs out} : (∀ a t, ¬ Proper c l s a t) → ServedAs c l rs out → ServedAs c l (some s :: rs) out
  | serve {s a t rs out} : Proper c l s a t → ServedAs c l rs out → ServedAs c l (some s :: rs) ((a, t) :: out)

/-- What the clients did: what each listener was to give. -/
def reached (c : Config) (l : Side) (ops : List Op) : List (Option Socket) :=
  ops.filterMap fun
    | .connect l' r => if l' = l ∧ (l = .two → c.local2.isSome) then some r else none
    | _ => none

/-- The connections of a listener for which there is a task, in the order they were accepted. -/
def World.accepted (w : World) (l : Side) : List (Addrs × Tcp) :=
  (w.tasks.filter (·.side = l)).map fun t => (t.addrs, t.tcp)

/-- What a listener has yet to give. -/
def World.queue (w : World) : Side → List (Option Socket)
  | .one => w.queue1
  | .two => w.queue2

/-! ## One connection -/

theorem mapped_plain (a : Nat) :
    plainIp (.v6 a) = (match Admin.mapped a with | some x => .v4 x | none => .v6 a) := by
  simp only [plainIp, Admin.mapped]
  by_cases h : a / 2 ^ 32 = 0xffff
  · rw [if_pos h, if_pos (by omega)]
    simp only [Ip.v4.injEq]; omega
  · rw [if_neg h, if_neg (by omega)]

theorem ipv4Mapped_eq (p : SocketAddr) : ipv4Mapped p = ⟨plainIp p.ip, p.port⟩ := by
  cases p with
  | mk ip port =>
    cases ip with
    | v4 a => rfl
    | v6 a =>
      rw [mapped_plain]
      simp only [ipv4Mapped]
      cases Admin.mapped a <;> rfl

theorem isV4_iff (a : SocketAddr) : IsV4 a ↔ (match a.ip with | .v4 _ => true | .v6 _ => false) = true := by
  cases a with
  | mk ip p => cases ip <;> simp [IsV4]

theorem convert_iff (s : Socket) (i : Nat) : s.convert i = true ↔ s.broken ≠ some i := by
  simp [Socket.convert]

theorem whole4 (s : Socket) :
    (∀ i, s.broken = some i → 4 ≤ i) ↔ s.convert 0 = true ∧ s.convert 1 = true ∧ s.convert 2 = true ∧ s.convert 3 = true := by
  simp only [convert_iff]
  cases s.broken with
  | none => simp
  | some j => simp; omega

theorem whole6 (s : Socket) :
    (∀ i, s.broken = some i → 6 ≤ i) ↔ (∀ i, s.broken = some i → 4 ≤ i) ∧ s.convert 4 = true ∧ s.convert 5 = true := by
  simp only [convert_iff]
  cases s.broken with
  | none => simp
  | some j => simp; omega

/-- What `BindTcp` gives. -/
theorem tcpItem_ok (c : Config) (sv : SocketAddr) (s : Socket) (x : Addrs × Socket × Tcp) :
    tcpItem c sv (some s) = .ok x ↔
      (∀ i, s.broken = some i → 4 ≤ i) ∧ ∃ p, s.peer = some p ∧
        x = (⟨sv, ⟨plainIp p.ip, p.port⟩, none⟩, s,
          ⟨s.id, s.nodelayOk, if s.keepaliveOk then some c.keepalive else none, if s.timeoutOk then some c.userTimeout else none⟩) := by
  rw [whole4]
  simp only [tcpItem, setKeepalive, setUserTimeout, setNodelay]
  cases s.convert 0 <;> cases s.convert 1 <;> cases s.convert 2 <;> cases s.convert 3 <;> simp
  cases s.peer with
  | none => simp
  | some p =>
    simp only [ipv4Mapped_eq, Except.ok.injEq, Option.some.injEq, exists_eq_left']
    cases s.nodelayOk <;> cases s.keepaliveOk <;> cases s.timeoutOk <;> exact eq_comm

theorem origDst_ok (s : Socket) (cl o : SocketAddr) :
    origDst s cl = .ok o ↔ s.convert 4 = true ∧ s.convert 5 = true ∧ (IsV4 cl → s.orig4 = some (some o)) ∧ (¬ IsV4 cl → s.orig6 = some (some o)) := by
  simp only [origDst, isV4_iff]
  cases s.convert 4 <;> cases s.convert 5 <;> simp
  · cases cl.ip with
    | v4 a => rcases s.orig4 with _ | _ | x <;> simp
    | v6 a => rcases s.orig6 with _ | _ | x <;> simp
  · cases cl.ip with
    | v4 a => rcases s.orig4 with _ | _ | x <;> simp
    | v6 a => rcases s.orig6 with _ | _ | x <;> simp

theorem item_ok (c : Config) (l : Side) (s : Socket) (a : Addrs) (t : Tcp) :
    item c (c.local l) (some s) = .ok (a, t) ↔ Proper c l s a t := by
  simp only [item]
  constructor
  · intro h
    cases ht : tcpItem c (c.local l) (some s) with
    | error e => rw [ht] at h; cases h
    | ok x =>
      rw [ht] at h
      obtain ⟨w4, p, hp, rfl⟩ := (tcpItem_ok c _ s x).1 ht
      dsimp only at h
      by_cases ho : c.withOrig = true
      · rw [if_pos ho] at h
        cases hd : origDst s ⟨plainIp p.ip, p.port⟩ with
        | error e => rw [hd] at h; cases h
        | ok o =>
          rw [hd] at h
          cases h
          obtain ⟨c4, c5, h4, h6⟩ := (origDst_ok _ _ _).1 hd
          refine ⟨?_, ?_, ⟨p, hp, rfl, rfl⟩, ?_, rfl, rfl, rfl, rfl⟩
          · rw [if_pos ho]; exact (whole6 s).2 ⟨w4, c4, c5⟩
          · cases l <;> rfl
          · rw [if_pos ho]; exact ⟨o, rfl, h4, h6⟩
      · rw [if_neg ho] at h
        cases h
        refine ⟨?_, ?_, ⟨p, hp, rfl, rfl⟩, ?_, rfl, rfl, rfl, rfl⟩
        · rw [if_neg ho]; exact w4
        · cases l <;> rfl
        · rw [if_neg ho]
  · rintro ⟨hw, hs, ⟨p, hp, hci, hcp⟩, ho, hid, hn, hk, hu⟩
    have hc : a.client = ⟨plainIp p.ip, p.port⟩ := by cases hh : a.client; rw [hh] at hci hcp; cases hci; cases hcp; rfl
    have hsv : a.server = c.local l := by cases l <;> exact Option.some.inj hs
    by_cases hO : c.withOrig = true
    · rw [if_pos hO] at hw ho
      obtain ⟨w4, c4, c5⟩ := (whole6 s).1 hw
      obtain ⟨o, hao, h4, h6⟩ := ho
      rw [(tcpItem_ok c (c.local l) s _).2 ⟨w4, p, hp, rfl⟩]
      dsimp only
      rw [if_pos hO, ← hc, (origDst_ok s a.client o).2 ⟨c4, c5, h4, h6⟩]
      cases a; cases t; cases hao; cases hsv; cases hid; cases hn; cases hk; cases hu; rfl
    · rw [if_neg hO] at hw ho
      rw [(tcpItem_ok c (c.local l) s _).2 ⟨hw, p, hp, rfl⟩]
      dsimp only
      rw [if_neg hO, ← hc]
      cases a; cases t; cases ho; cases hsv; cases hid; cases hn; cases hk; cases hu; rfl

/-- What of a listener is served. -/
def good (c : Config) (l : Side) (r : Option Socket) : Option (Addrs × Tcp) :=
  match item c (c.local l) r with
  | .ok x => some x
  | .error _ => none

theorem good_none (c : Config) (l : Side) : good c l none = none := rfl

theorem good_iff (c : Config) (l : Side) (s : Socket) (x : Addrs × Tcp) : good c l (some s) = some x ↔ Proper c l s x.1 x.2 := by
  rw [← item_ok]
  simp only [good]
  cases item c (c.local l) (some s) <;> simp

theorem servedAs (c : Config) (l : Side) : ∀ rs : List (Option Socket), ServedAs c l rs (rs.filterMap (good c l))
  | [] => .nil
  | none :: rs => by
    rw [List.filterMap_cons_none (good_none c l)]
    exact .error (servedAs c l rs)
  | some s :: rs => by
    cases h : good c l (some s) with
    | none =>
      rw [List.filterMap_cons_none h]
      refine .skip (fun a t hp => ?_) (servedAs c l rs)
      rw [(good_iff c l s (a, t)).2 hp] at h
      cases h
    | some x =>
      rw [List.filterMap_cons_some (f := good c l) h]
      exact .serve ((good_iff c l s x).1 h) (servedAs c l rs)

/-! ## The loop -/

theorem take_eq (c : Config) (w : World) (l : Side) (r : Option Socket) :
    take c w l r = { w with tasks := w.tasks ++ (good c l r).toList.map fun x => ⟨l, x.1, x.2, .waiting⟩ } := by
  simp only [take, good]
  cases item c (c.local l) r with
  | error e => simp
  | ok x => simp

/-- What one call of the loop does. -/
structure Took (c : Config) (w w' : World) (one two : List (Option Socket)) (new : List Task) : Prop where
  queue1 : w.queue1 = one ++ w'.queue1
  queue2 : w.queue2 = two ++ w'.queue2
  tasks : w'.tasks = w.tasks ++ new
  new1 : (new.filter (·.side = .one)).map (fun t => (t.addrs, t.tcp)) = one.filterMap (good c .one)
  new2 : (new.filter (·.side = .two)).map (fun t => (t.addrs, t.tcp)) = two.filterMap (good c .two)
  stage : ∀ t ∈ new, t.stage = .waiting
  told : w'.told = w.told
  ended : w'.ended = w.ended

theorem Took.refl {c : Config} {w w' : World} (h1 : w'.queue1 = w.queue1) (h2 : w'.queue2 = w.queue2) (ht : w'.tasks = w.tasks)
    (h3 : w'.told = w.told) (h4 : w'.ended = w.ended) : Took c w w' [] [] [] :=
  ⟨by simp [h1], by simp [h2], by simp [ht], rfl, rfl, (fun _ h => nomatch h), h3, h4⟩

theorem Took.trans {c : Config} {w w' w'' : World} {a b a' b' n n'} (h : Took c w w' a b n) (h' : Took c w' w'' a' b' n') :
    Took c w w'' (a ++ a') (b ++ b') (n ++ n') := by
  refine ⟨?_, ?_, ?_, ?_, ?_, ?_, h'.told.trans h.told, h'.ended.trans h.ended⟩
  · rw [h.queue1, h'.queue1, List.append_assoc]
  · rw [h.queue2, h'.queue2, List.append_assoc]
  · rw [h'.tasks, h.tasks, List.append_assoc]
  · rw [List.filter_append, List.map_append, h.new1, h'.new1, List.filterMap_append]
  · rw [List.filter_append, List.map_append, h.new2, h'.new2, List.filterMap_append]
  · intro t ht
    rcases List.mem_append.1 ht with ht | ht
    · exact h.stage t ht
    · exact h'.stage t ht

theorem took_one (c : Config) {w w' : World} {r q} (h1 : w.queue1 = r :: q) (h1' : w'.queue1 = q) (h2 : w'.queue2 = w.queue2) (ht : w'.tasks = w.tasks)
    (h3 : w'.told = w.told) (h4 : w'.ended = w.ended) : ∃ n, Took c w (take c w' .one r) [r] [] n := by
  refine ⟨(good c .one r).toList.map fun x => ⟨.one, x.1, x.2, .waiting⟩, ?_, ?_, ?_, ?_, ?_, ?_, ?_, ?_⟩
  · rw [take_eq, h1, h1']; rfl
  · rw [take_eq, ← h2]; rfl
  · rw [take_eq, ht]
  · cases h : good c .one r with
    | none => rw [List.filterMap_cons_none h]; rfl
    | some x => rw [List.filterMap_cons_some (f := good c .one) h]; rfl
  · cases good c .one r <;> rfl
  · intro t h
    obtain ⟨x, _, rfl⟩ := List.mem_map.1 h
    rfl
  · rw [take_eq]; exact h3
  · rw [take_eq]; exact h4

theorem took_two (c : Config) {w w' : World} {r q} (h1 : w.queue2 = r :: q) (h1' : w'.queue2 = q) (h2 : w'.queue1 = w.queue1) (ht : w'.tasks = w.tasks)
    (h3 : w'.told = w.told) (h4 : w'.ended = w.ended) : ∃ n, Took c w (take c w' .two r) [] [r] n := by
  refine ⟨(good c .two r).toList.map fun x => ⟨.two, x.1, x.2, .waiting⟩, ?_, ?_, ?_, ?_, ?_, ?_, ?_, ?_⟩
  · rw [take_eq, ← h2]; rfl
  · rw [take_eq, h1, h1']; rfl
  · rw [take_eq, ht]
  · cases good c .two r <;> rfl
  · cases h : good c .two r with
    | none => rw [List.filterMap_cons_none h]; rfl
    | some x => rw [List.filterMap_cons_some (f := good c .two) h]; rfl
  · intro t h
    obtain ⟨x, _, rfl⟩ := List.mem_map.1 h
    rfl
  · rw [take_eq]; exact h3
  · rw [take_eq]; exact h4

/-- The five cases of `next`. -/
inductive Next (w : World) : World × Option (Side × Option Socket) → Prop where
  | none : w.queue1 = [] → w.queue2 = [] → Next w ({ w with aFirst := !w.aFirst }, none)
  | one {r q} : w.queue1 = r :: q → (w.aFirst = true ∨ w.queue2 = []) → Next w ({ w with aFirst := !w.aFirst, queue1 := q }, some (.one, r))
  | two {r q} : w.queue2 = r :: q → (w.aFirst = false ∨ w.queue1 = []) → Next w ({ w with aFirst := !w.aFirst, queue2 := q }, some (.two, r))

theorem next_cases (w : World) : Next w (next w) := by
  obtain ⟨q1, q2, b, t, e, ts⟩ := w
  cases b <;> cases q1 with
  | nil => cases q2 with
    | nil => exact .none rfl rfl
    | cons r q => exact .two rfl (by simp)
  | cons r q => cases q2 with
    | nil => first | exact .one rfl (by simp)
    | cons r' q' => first | exact .two rfl (.inl rfl) | exact .one rfl (.inl rfl)

theorem accept_took (c : Config) : ∀ (k : Nat) (w : World), ∃ a b n, Took c w (accept c k w) a b n
  | 0, w => ⟨[], [], [], Took.refl rfl rfl rfl rfl rfl⟩
  | k + 1, w => by
    have t := next_cases w
    rw [accept]
    generalize next w = p at t ⊢
    cases t with
    | none h1 h2 => exact ⟨[], [], [], Took.refl rfl rfl rfl rfl rfl⟩
    | one h1 _ =>
      obtain ⟨n, hn⟩ := took_one c h1 (w' := { w with aFirst := !w.aFirst, queue1 := _ }) rfl rfl rfl rfl rfl
      obtain ⟨a, b, n', hn'⟩ := accept_took c k (take c { w with aFirst := !w.aFirst, queue1 := _ } .one _)
      exact ⟨_, _, _, hn.trans hn'⟩
    | two h1 _ =>
      obtain ⟨n, hn⟩ := took_two c h1 (w' := { w with aFirst := !w.aFirst, queue2 := _ }) rfl rfl rfl rfl rfl
      obtain ⟨a, b, n', hn'⟩ := accept_took c k (take c { w with aFirst := !w.aFirst, queue2 := _ } .two _)
      exact ⟨_, _, _, hn.trans hn'⟩

/-- How much is left. -/
theorem accept_left (c : Config) : ∀ (k : Nat) (w : World),
    (accept c k w).queue1.length ≤ w.queue1.length - (if w.aFirst then (k + 1) / 2 else k / 2) ∧
    (accept c k w).queue2.length ≤ w.queue2.length - (if w.aFirst then k / 2 else (k + 1) / 2) ∧
    (accept c k w).queue1.length + (accept c k w).queue2.length = w.queue1.length + w.queue2.length - k
  | 0, w => by simp [accept]
  | k + 1, w => by
    have t := next_cases w
    rw [accept]
    generalize next w = p at t ⊢
    cases t with
    | none h1 h2 => simp [h1, h2]
    | @one r q h1 hf =>
      have ih := accept_left c k (take c { w with aFirst := !w.aFirst, queue1 := q } .one r)
      dsimp only
      generalize accept c k _ = w' at ih ⊢
      rw [take_eq] at ih
      dsimp only at ih
      rw [h1]
      simp only [List.length_cons]
      cases hb : w.aFirst <;> simp only [hb, Bool.not_true, Bool.not_false, if_true, if_false, reduceIte, Bool.false_eq_true] at ih hf ⊢
      · have : w.queue2.length = 0 := by simpa using hf
        omega
      · omega
    | @two r q h1 hf =>
      have ih := accept_left c k (take c { w with aFirst := !w.aFirst, queue2 := q } .two r)
      dsimp only
      generalize accept c k _ = w' at ih ⊢
      rw [take_eq] at ih
      dsimp only at ih
      rw [h1]
      simp only [List.length_cons]
      cases hb : w.aFirst <;> simp only [hb, Bool.not_true, Bool.not_false, if_true, if_false, reduceIte, Bool.false_eq_true] at ih hf ⊢
      · omega
      · have : w.queue1.length = 0 := by simpa using hf
        omega

/-- One step does not change which connections were accepted, or accepts some. -/
theorem onReady_same (ok : Bool) (t : Task) : (onReady ok t).side = t.side ∧ (onReady ok t).addrs = t.addrs ∧ (onReady ok t).tcp = t.tcp := by
  cases t with
  | mk _ _ _ s => cases s <;> exact ⟨rfl, rfl, rfl⟩

theorem onClose_same (ok : Bool) (t : Task) : (onClose ok t).side = t.side ∧ (onClose ok t).addrs = t.addrs ∧ (onClose ok t).tcp = t.tcp := by
  cases t with
  | mk _ _ _ s => cases s <;> exact ⟨rfl, rfl, rfl⟩

theorem accepted_modify (f : Task → Task) (hf : ∀ t, (f t).side = t.side ∧ (f t).addrs = t.addrs ∧ (f t).tcp = t.tcp) (l : Side) :
    ∀ (ts : List Task) (i : Nat),
      ((ts.modify i f).filter (·.side = l)).map (fun t => (t.addrs, t.tcp)) = (ts.filter (·.side = l)).map (fun t => (t.addrs, t.tcp))
  | [], i => by cases i <;> rfl
  | t :: ts, 0 => by
    obtain ⟨h1, h2, h3⟩ := hf t
    rw [List.modify_zero_cons, List.filter_cons, List.filter_cons, h1]
    by_cases h : decide (t.side = l) = true
    · rw [if_pos h, if_pos h, List.map_cons, List.map_cons, h2, h3]
    · rw [if_neg h, if_neg h]
  | t :: ts, i + 1 => by
    rw [List.modify_succ_cons, List.filter_cons, List.filter_cons]
    by_cases h : decide (t.side = l) = true
    · rw [if_pos h, if_pos h, List.map_cons, List.map_cons, accepted_modify f hf l ts i]
    · rw [if_neg h, if_neg h]; exact accepted_modify f hf l ts i

/-- The history of a listener: what it gave that was taken, and what it has yet to give. -/
def Hist (c : Config) (w : World) (l : Side) (rs : List (Option Socket)) : Prop :=
  ∃ taken rest, rs = taken ++ rest ∧ (w.ended = false → rest = w.queue l) ∧ w.accepted l = taken.filterMap (good c l)

theorem Took.hist {c : Config} {w w' : World} {a b n} (h : Took c w w' a b n) (l : Side) {rs} (he : w.ended = false) (i : Hist c w l rs) :
    Hist c w' l rs := by
  obtain ⟨taken, rest, rfl, hr, ha⟩ := i
  cases hr he
  cases l with
  | one =>
    refine ⟨taken ++ a, w'.queue1, ?_, fun _ => rfl, ?_⟩
    · rw [List.append_assoc, ← h.queue1]; rfl
    · have := h.new1
      simp only [World.accepted] at ha ⊢
      rw [h.tasks, List.filter_append, List.map_append, ha, List.filterMap_append, this]
  | two =>
    refine ⟨taken ++ b, w'.queue2, ?_, fun _ => rfl, ?_⟩
    · rw [List.append_assoc, ← h.queue2]; rfl
    · have := h.new2
      simp only [World.accepted] at ha ⊢
      rw [h.tasks, List.filter_append, List.map_append, ha, List.filterMap_append, this]

theorem reached_snoc (c : Config) (l : Side) (ops : List Op) (o : Op) : reached c l (ops ++ [o]) = reached c l ops ++ reached c l [o] := by
  simp [reached, List.filterMap_append]

theorem Hist.finish {c : Config} {w : World} {l : Side} {rs} (i : Hist c w l rs) : Hist c (finish w) l rs := by
  obtain ⟨taken, rest, hrs, _, ha⟩ := i
  exact ⟨taken, rest, hrs, (fun h => nomatch h), ha⟩

theorem Hist.step {c : Config} {w : World} {l : Side} {rs} (i : Hist c w l rs) (o : Op) : Hist c (step c w o) l (rs ++ reached c l [o]) := by
  have same : ∀ w' : World, w'.ended = w.ended → w'.queue l = w.queue l → w'.accepted l = w.accepted l → Hist c w' l (rs ++ []) := by
    intro w' h1 h2 h3
    obtain ⟨taken, rest, hrs, hr, ha⟩ := i
    exact ⟨taken, rest, by rw [List.append_nil, hrs], by rw [h1, h2]; exact hr, by rw [h3, ha]⟩
  have late : ∀ r, w.ended = true → Hist c w l (rs ++ r) := by
    intro r he
    obtain ⟨taken, rest, rfl, _, ha⟩ := i
    exact ⟨taken, rest ++ r, by rw [List.append_assoc], (fun h => by rw [he] at h; cases h), ha⟩
  have queued : ∀ (w' : World) r, w.ended = false → w'.ended = w.ended → w'.queue l = w.queue l ++ r → w'.accepted l = w.accepted l → Hist c w' l (rs ++ r) := by
    intro w' r he h1 h2 h3
    obtain ⟨taken, rest, rfl, hr, ha⟩ := i
    exact ⟨taken, rest ++ r, by rw [List.append_assoc], (fun _ => by rw [h2, hr he]), by rw [h3, ha]⟩
  cases o with
  | connect l' r =>
    cases he : w.ended with
    | true =>
      have : Accept.step c w (.connect l' r) = w := by cases l' <;> simp [Accept.step, he]
      rw [this]
      exact late _ he
    | false =>
      cases l' with
      | one =>
        simp only [Accept.step, he, Bool.false_eq_true, if_false]
        cases l with
        | one => exact queued _ _ he he.symm rfl rfl
        | two => exact same _ he.symm rfl rfl
      | two =>
        cases h2 : c.local2 with
        | none =>
          simp only [Accept.step, he, h2, Option.isNone_none, Bool.false_or, if_true]
          cases l with
          | one => exact same _ rfl rfl rfl
          | two => rw [show reached c .two [.connect .two r] = [] by simp [reached, h2]]; exact same _ rfl rfl rfl
        | some a =>
          simp only [Accept.step, he, h2, Option.isNone_some, Bool.false_or, Bool.false_eq_true, if_false]
          cases l with
          | one => exact same _ he.symm rfl rfl
          | two => rw [show reached c .two [.connect .two r] = [r] by simp [reached, h2]]; exact queued _ _ he he.symm rfl rfl
  | poll f k =>
    rw [show reached c l [.poll f k] = [] from rfl, List.append_nil]
    cases he : w.ended with
    | true => simpa [Accept.step, he] using i
    | false =>
      obtain ⟨a, b, n, hk⟩ := accept_took c k w
      have h1 : Hist c (accept c k w) l rs := hk.hist l he i
      simp only [Accept.step, he, Bool.false_eq_true, if_false]
      cases f <;> cases w.told
      · exact h1
      · exact i.finish
      · exact h1
      · exact h1.finish
  | shutdown => exact same _ rfl (by cases l <;> rfl) rfl
  | ready j ok => exact same _ rfl (by cases l <;> rfl) (accepted_modify _ (onReady_same ok) l _ _)
  | close j ok => exact same _ rfl (by cases l <;> rfl) (accepted_modify _ (onClose_same ok) l _ _)

theorem hist_run (c : Config) (ops : List Op) (l : Side) : Hist c (run c init ops) l (reached c l ops) := by
  induction ops using snoc_induction with
  | nil => exact ⟨[], [], rfl, fun _ => by cases l <;> rfl, rfl⟩
  | snoc ops o ih =>
    rw [run, List.foldl_append, reached_snoc]
    exact ih.step o

/-! ## Theorems -/

/-- Of what each listener gives, in order, each connection that can be served is served, once, with its own addresses; the others are passed over,
and stop nothing. What is still to be taken is what was last to come. -/
theorem C116_each_connection_is_served_once (c : Config) (ops : List Op) (l : Side) :
    ∃ taken rest, reached c l ops = taken ++ rest ∧ ServedAs c l taken ((run c init ops).accepted l) ∧
      ((run c init ops).ended = false → rest = (run c init ops).queue l) := by
  obtain ⟨taken, rest, h, hr, ha⟩ := hist_run c ops l
  exact ⟨taken, rest, h, ha ▸ servedAs c l taken, hr⟩

/-- A connection is served with one set of addresses only. -/
theorem C116_served_with_its_own_addresses {c : Config} {l : Side} {s : Socket} {a a' : Addrs} {t t' : Tcp} (h : Proper c l s a t)
    (h' : Proper c l s a' t') : a = a' ∧ t = t' := by
  have e := ((item_ok c l s a t).2 h).symm.trans ((item_ok c l s a' t').2 h')
  cases e
  exact ⟨rfl, rfl⟩

/-- No client is said to have an IPv4 address in the form of an IPv6 one. -/
theorem C116_clients_are_not_mapped {c : Config} {l : Side} {s : Socket} {a : Addrs} {t : Tcp} (h : Proper c l s a t) (x : Nat)
    (hx : a.client.ip = .v6 x) : x / 2 ^ 32 ≠ 0xffff := by
  obtain ⟨p, _, hi, _⟩ := h.client
  rw [hx] at hi
  cases hp : p.ip with
  | v4 y => rw [hp] at hi; cases hi
  | v6 y =>
    rw [hp, plainIp] at hi
    split at hi
    · cases hi
    · cases hi; omega

/-- Whether an option can be set does not decide whether, or with which addresses, a connection is served. -/
theorem C116_options_refuse_no_connection {c : Config} {l : Side} {s : Socket} {a : Addrs} {t : Tcp} (h : Proper c l s a t) (n k u : Bool) :
    ∃ t', Proper c l { s with nodelayOk := n, keepaliveOk := k, timeoutOk := u } a t' :=
  ⟨⟨s.id, n, if k then some c.keepalive else none, if u then some c.userTimeout else none⟩,
    h.whole, h.server, h.client, h.orig, rfl, rfl, rfl, rfl⟩

/-- However much comes to one listener, half of what is taken is of the other, if it has as much to give; and the loop takes as much as it may. -/
theorem C116_no_listener_starves (c : Config) (w : World) (f : Bool) (k : Nat) (he : w.ended = false) (ht : w.told = false) :
    (∀ l, ((step c w (.poll f k)).queue l).length ≤ (w.queue l).length - k / 2) ∧
    ((step c w (.poll f k)).queue .one).length + ((step c w (.poll f k)).queue .two).length =
      (w.queue .one).length + (w.queue .two).length - k := by
  have h : step c w (.poll f k) = accept c k w := by cases f <;> simp [step, he, ht]
  rw [h]
  obtain ⟨h1, h2, h3⟩ := accept_left c k w
  refine ⟨fun l => ?_, h3⟩
  cases l
  · have : k / 2 ≤ if w.aFirst then (k + 1) / 2 else k / 2 := by split <;> omega
    exact Nat.le_trans h1 (by simp only [World.queue]; omega)
  · have : k / 2 ≤ if w.aFirst then k / 2 else (k + 1) / 2 := by split <;> omega
    exact Nat.le_trans h2 (by simp only [World.queue]; omega)

theorem step_ended {c : Config} {w : World} (o : Op) (he : w.ended = true) :
    (step c w o).ended = true ∧ (∀ l, (step c w o).accepted l = w.accepted l) := by
  cases o with
  | connect l r => cases l <;> simp [step, he]
  | poll f k => simp [step, he]
  | shutdown => exact ⟨he, fun _ => rfl⟩
  | ready i ok => exact ⟨he, fun l => accepted_modify _ (onReady_same ok) l _ _⟩
  | close i ok => exact ⟨he, fun l => accepted_modify _ (onClose_same ok) l _ _⟩

theorem run_ended {c : Config} (ops : List Op) : ∀ {w : World}, w.ended = true →
    (run c w ops).ended = true ∧ (∀ l, (run c w ops).accepted l = w.accepted l) := by
  induction ops with
  | nil => exact fun he => ⟨he, fun _ => rfl⟩
  | cons o ops ih =>
    intro w he
    have h := step_ended (c := c) o he
    have h' := ih h.1
    exact ⟨h'.1, fun l => (h'.2 l).trans (h.2 l)⟩

theorem step_told {c : Config} {w : World} (o : Op) (h : w.told = true) : (step c w o).told = true := by
  cases o with
  | connect l r => cases l <;> simp only [step] <;> split <;> exact h
  | poll f k =>
    obtain ⟨a, b, n, hk⟩ := accept_took c k w
    simp only [step]
    repeat' split
    all_goals first | exact h | exact hk.told.trans h
  | shutdown => rfl
  | ready i ok => exact h
  | close i ok => exact h

/-- Once shutdown is signalled the server stops as it is next polled; from then on no connection is accepted. -/
theorem C116_stops_at_shutdown (c : Config) (w : World) (ops : List Op) (f : Bool) (k : Nat) (more : List Op) (ht : w.told = true) :
    let stopped := run c w (ops ++ [.poll f k])
    stopped.ended = true ∧ ∀ l, (run c stopped more).accepted l = stopped.accepted l := by
  have hr : (run c w ops).told = true := by
    induction ops generalizing w with
    | nil => exact ht
    | cons o ops ih => exact ih _ (step_told o ht)
  have he : (run c w (ops ++ [.poll f k])).ended = true := by
    rw [run, List.foldl_append]
    show (step c (run c w ops) (.poll f k)).ended = true
    generalize run c w ops = w' at hr
    simp only [step, hr, if_true]
    split
    · assumption
    · cases f <;> rfl
  exact ⟨he, (run_ended more he).2⟩

/-- Nothing else stops it: not a connection that fails, nor an error of a listener. -/
theorem C116_serves_until_shutdown (c : Config) (ops : List Op) (h : Op.shutdown ∉ ops) : (run c init ops).ended = false := by
  suffices hh : (run c init ops).ended = false ∧ (run c init ops).told = false from hh.1
  induction ops using snoc_induction with
  | nil => exact ⟨rfl, rfl⟩
  | snoc ops o ih =>
    obtain ⟨he, ht⟩ := ih (fun hm => h (List.mem_append.2 (.inl hm)))
    rw [run, List.foldl_append]
    show (step c (run c init ops) o).ended = false ∧ (step c (run c init ops) o).told = false
    generalize run c init ops = w at he ht
    cases o with
    | connect l r => cases l <;> simp only [step] <;> split <;> exact ⟨he, ht⟩
    | poll f k =>
      have hs : step c w (.poll f k) = accept c k w := by cases f <;> simp [step, he, ht]
      obtain ⟨a, b, n, hk⟩ := accept_took c k w
      rw [hs]
      exact ⟨hk.ended.trans he, hk.told.trans ht⟩
    | shutdown => exact absurd (List.mem_append.2 (.inr (List.mem_singleton.2 rfl))) h
    | ready i ok => exact ⟨he, ht⟩
    | close i ok => exact ⟨he, ht⟩

/-- Whether a task has the service that was made for its connection (serve.rs:76-79). -/
def Holds (t : Task) : Prop := t.stage = .waiting ∨ t.stage = .serving

/-- What happens to one connection is a matter of that connection: neither others, nor the listeners, nor shutdown changes anything about it, and
its service is kept until its call has ended or it failed to become ready. -/
theorem C116_connections_end_on_their_own (c : Config) (w : World) (o : Op) (i : Nat) (t : Task) (h : w.tasks[i]? = some t) :
    ∃ t', (step c w o).tasks[i]? = some t' ∧
      ((∀ ok, o ≠ .ready i ok ∧ o ≠ .close i ok) → t' = t) ∧
      (t'.addrs = t.addrs ∧ t'.tcp = t.tcp ∧ t'.side = t.side) ∧
      (Holds t → ¬ Holds t' →
        (o = .ready i false ∧ t.stage = .waiting ∧ t'.stage = .refused) ∨ ∃ ok, o = .close i ok ∧ t.stage = .serving ∧ t'.stage = .closed ok) := by
  have same : ∀ w' : World, (∃ n, w'.tasks = w.tasks ++ n) → ∃ t', w'.tasks[i]? = some t' ∧
      ((∀ ok, o ≠ .ready i ok ∧ o ≠ .close i ok) → t' = t) ∧ (t'.addrs = t.addrs ∧ t'.tcp = t.tcp ∧ t'.side = t.side) ∧
      (Holds t → ¬ Holds t' →
        (o = .ready i false ∧ t.stage = .waiting ∧ t'.stage = .refused) ∨ ∃ ok, o = .close i ok ∧ t.stage = .serving ∧ t'.stage = .closed ok) := by
    rintro w' ⟨n, hn⟩
    refine ⟨t, ?_, fun _ => rfl, ⟨rfl, rfl, rfl⟩, fun h1 h2 => absurd h1 h2⟩
    rw [hn, List.getElem?_append_left (lt_of_getElem?_some h)]
    exact h
  cases o with
  | connect l r => cases l <;> simp only [step] <;> split <;> exact same _ ⟨[], (List.append_nil _).symm⟩
  | poll f k =>
    obtain ⟨a, b, n, hk⟩ := accept_took c k w
    simp only [step]
    repeat' split
    all_goals first | exact same _ ⟨[], (List.append_nil _).symm⟩ | exact same _ ⟨n, hk.tasks⟩
  | shutdown => exact same _ ⟨[], (List.append_nil _).symm⟩
  | ready j ok =>
    by_cases hj : j = i
    · subst hj
      refine ⟨onReady ok t, ?_, fun hn => absurd rfl (hn ok).1, ?_, ?_⟩
      · simp only [step]
        rw [List.getElem?_modify, h]
        simp
      · obtain ⟨h1, h2, h3⟩ := onReady_same ok t
        exact ⟨h2, h3, h1⟩
      · obtain ⟨sd, ad, tc, st⟩ := t
        cases st <;> cases ok <;> simp [Holds, onReady]
    · refine ⟨t, ?_, fun _ => rfl, ⟨rfl, rfl, rfl⟩, fun h1 h2 => absurd h1 h2⟩
      simp only [step]
      rw [List.getElem?_modify, h]
      simp [hj]
  | close j ok =>
    by_cases hj : j = i
    · subst hj
      refine ⟨onClose ok t, ?_, fun hn => absurd rfl (hn ok).2, ?_, ?_⟩
      · simp only [step]
        rw [List.getElem?_modify, h]
        simp
      · obtain ⟨h1, h2, h3⟩ := onClose_same ok t
        exact ⟨h2, h3, h1⟩
      · obtain ⟨sd, ad, tc, st⟩ := t
        cases st <;> cases ok <;> simp [Holds, onClose]
    · refine ⟨t, ?_, fun _ => rfl, ⟨rfl, rfl, rfl⟩, fun h1 h2 => absurd h1 h2⟩
      simp only [step]
      rw [List.getElem?_modify, h]
      simp [hj]

/-- Both listeners are bound to what was asked for, or the server is not started. -/
theorem C116_bound_to_both_or_none (os : SocketAddr → Option Nat → Option SocketAddr) (backlog : Option Nat) (a1 : SocketAddr) (a2 : Option SocketAddr)
    (b : SocketAddr × Option SocketAddr) :
    bindDual os backlog a1 a2 = some b ↔
      os a1 backlog = some b.1 ∧ ((a2 = none ∧ b.2 = none) ∨ ∃ a b', a2 = some a ∧ os a backlog = some b' ∧ b.2 = some b') := by
  obtain ⟨b1, b2⟩ := b
  simp only [bindDual, bindTcp]
  cases h1 : os a1 backlog with
  | none => simp
  | some x =>
    cases a2 with
    | none => simp; intro _; exact eq_comm
    | some a =>
      cases h2 : os a backlog with
      | none => simp [h2]
      | some y => simp [h2]; intro _; exact eq_comm

/-- A limit: a connection for which the operating system has no original destination in the family of the client's address is dropped, without a word. -/
theorem C116_limit_no_original_destination {c : Config} (ho : c.withOrig = true) {l : Side} {s : Socket} {a : Addrs} {t : Tcp} {p : SocketAddr}
    (hp : s.peer = some p) (h4 : IsV4 ⟨plainIp p.ip, p.port⟩) (hn : ∀ o, s.orig4 ≠ some (some o)) : ¬ Proper c l s a t := by
  intro h
  have hor := h.orig
  rw [if_pos ho] at hor
  obtain ⟨o, _, h4', _⟩ := hor
  obtain ⟨p', hp', hi, _⟩ := h.client
  rw [hp] at hp'
  cases hp'
  obtain ⟨x, hx⟩ := h4
  exact hn o (h4' ⟨x, hi.trans hx⟩)

/-- A limit: errors of a listener are not slowed down. Each is followed by the next at once, and errors use up the turns of connections: a poll with
budget `k` may take `k` errors and accept no connection. -/
theorem C116_limit_errors_are_not_paced (c : Config) (w : World) (k : Nat) (he : w.ended = false) (ht : w.told = false) (h2 : w.queue2 = [])
    (rest : List (Option Socket)) (h1 : w.queue1 = List.replicate k none ++ rest) :
    (step c w (.poll true k)).queue1 = rest ∧ (step c w (.poll true k)).tasks = w.tasks := by
  have h : step c w (.poll true k) = accept c k w := by simp [step, he, ht]
  rw [h]
  clear h
  induction k generalizing w with
  | zero => exact ⟨h1, rfl⟩
  | succ k ih =>
    have h1' : w.queue1 = none :: (List.replicate k none ++ rest) := h1
    have t := next_cases w
    rw [accept]
    generalize next w = p at t ⊢
    cases t with
    | none h _ => rw [h1'] at h; cases h
    | one h _ =>
      rw [h1'] at h
      cases h
      exact ih { w with aFirst := !w.aFirst, queue1 := _ } he ht h2 rfl
    | two h _ => rw [h2] at h; cases h

/-! ## Examples -/

def exConfig : Config := ⟨true, ⟨.v4 0x7f000001, 4140⟩, some ⟨.v6 1, 4140⟩, some 10, none⟩

/-- A client of IPv4 that reaches the listener of IPv6. -/
def exMapped : Socket := ⟨7, some ⟨.v6 (0xffff * 2 ^ 32 + 0x0a000001), 5000⟩, some (some ⟨.v4 0x0a000002, 80⟩), none, true, false, true, none⟩

/-- A client of IPv6. -/
def exSix : Socket := ⟨8, some ⟨.v6 0xfd, 5001⟩, none, some (some ⟨.v6 0xfe, 80⟩), true, true, true, none⟩

/-- A connection that is gone. -/
def exGone : Socket := ⟨9, none, none, none, true, true, true, none⟩

def exOps : List Op :=
  [.connect .two (some exMapped), .connect .one none, .connect .one (some exGone), .connect .two (some exSix), .poll true 3, .ready 0 true,
    .poll false 128, .shutdown, .close 0 false, .poll false 128, .connect .one (some exSix), .poll true 5]

theorem exProper : Proper exConfig .two exMapped ⟨⟨.v6 1, 4140⟩, ⟨.v4 0x0a000001, 5000⟩, some ⟨.v4 0x0a000002, 80⟩⟩ ⟨7, true, none, some none⟩ :=
  (item_ok _ _ _ _ _).1 rfl

example : (run exConfig init exOps).tasks =
    [⟨.two, ⟨⟨.v6 1, 4140⟩, ⟨.v4 0x0a000001, 5000⟩, some ⟨.v4 0x0a000002, 80⟩⟩, ⟨7, true, none, some none⟩, .closed false⟩,
      ⟨.two, ⟨⟨.v6 1, 4140⟩, ⟨.v6 0xfd, 5001⟩, some ⟨.v6 0xfe, 80⟩⟩, ⟨8, true, some (some 10), some none⟩, .waiting⟩] ∧
    (run exConfig init exOps).ended = true := by decide +kernel

/-- What is accepted with a budget of three: nothing of the first listener can be served, and it has its turns all the same. -/
example : (run exConfig init (exOps.take 5)).queue1 = [] ∧ (run exConfig init (exOps.take 5)).queue2 = [some exSix] ∧
    (run exConfig init (exOps.take 5)).tasks.length = 1 := by decide +kernel

example : IsV4 ⟨plainIp (.v6 (0xffff * 2 ^ 32 + 1)), 1⟩ := ⟨1, by decide +kernel⟩

example : bindDual (fun a _ => if a.port = 0 then none else some a) none ⟨.v4 1, 80⟩ (some ⟨.v6 1, 0⟩) = none := by decide +kernel

end Verif.Accept
