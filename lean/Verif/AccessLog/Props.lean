import Verif.AccessLog.Spec
import Verif.Common.List

/-!
# The access log: theorems (C110)
-/

namespace Verif.AccessLog

open Verif

/-! ## One request alone -/

def oneStep (layer : Option Format) (s : Fut × List Line) : Op → Fut × List Line
  | .call _ others c ts r now =>
    match s.1 with
    | .unmade => (call layer others c ts r now, s.2)
    | _ => s
  | .poll _ a b inner =>
    match s.1 with
    | .live d => (.live (poll d a b inner).1, s.2)
    | _ => s
  | .drop _ =>
    match s.1 with
    | .live (some { line := some l, .. }) => (.gone, s.2 ++ [l])
    | .live _ => (.gone, s.2)
    | _ => s

def seen (k : Nat) (s : St) : Fut × List Line := (s.futs k, linesOf k s.out)

theorem seen_step (layer : Option Format) (s : St) (o : Op) (k : Nat) :
    seen k (step layer s o) = if o.key = k then oneStep layer (seen k s) o else seen k s := by
  cases o with
  | call j others c ts r now =>
    by_cases hk : j = k
    · subst hk
      cases hf : s.futs j <;> simp [step, seen, oneStep, Op.key, hf, setAt]
    · have hk' : ¬ k = j := fun h => hk h.symm
      cases hf : s.futs j <;> simp [step, seen, Op.key, hf, setAt, hk, hk']
  | poll j a b inner =>
    by_cases hk : j = k
    · subst hk
      cases hf : s.futs j <;> simp [step, seen, oneStep, Op.key, hf, setAt]
    · have hk' : ¬ k = j := fun h => hk h.symm
      cases hf : s.futs j <;> simp [step, seen, Op.key, hf, setAt, hk, hk']
  | drop j =>
    by_cases hk : j = k
    · subst hk
      rcases hf : s.futs j with _ | (_ | ⟨_ | l, st, pr⟩) | _ <;>
        simp [step, seen, oneStep, Op.key, hf, setAt, linesOf]
    · have hk' : ¬ k = j := fun h => hk h.symm
      rcases hf : s.futs j with _ | (_ | ⟨_ | l, st, pr⟩) | _ <;>
        simp [step, seen, Op.key, hf, setAt, hk, hk', linesOf]

theorem run_snoc (layer : Option Format) (ops : List Op) (o : Op) :
    run layer (ops ++ [o]) = step layer (run layer ops) o := by simp [run]

theorem about_snoc (k : Nat) (ops : List Op) (o : Op) :
    about k (ops ++ [o]) = if o.key = k then about k ops ++ [o] else about k ops := by
  unfold about
  by_cases h : o.key = k <;> simp [h]

theorem seen_run (layer : Option Format) (ops : List Op) (k : Nat) :
    seen k (run layer ops) = (about k ops).foldl (oneStep layer) (.unmade, []) := by
  induction ops using snoc_induction with
  | nil => rfl
  | snoc ops o ih =>
    rw [run_snoc, seen_step, about_snoc, ih]
    by_cases h : o.key = k <;> simp [h]

/-! ## The life of a request -/

def waited (w : List (Nat × Nat)) : Nat := (w.map fun w => w.2 - w.1).sum

theorem fold_waits (layer : Option Format) (k : Nat) (ws : List (Nat × Nat)) (d : Data) (ls : List Line) :
    (ws.map fun w => Op.poll k w.1 w.2 .pending).foldl (oneStep layer) (.live (some d), ls) =
      (.live (some { d with processing := d.processing + waited ws }), ls) := by
  induction ws generalizing d with
  | nil => rfl
  | cons w ws ih =>
    simp only [List.map_cons, List.foldl_cons]
    rw [show oneStep layer (.live (some d), ls) (.poll k w.1 w.2 .pending) =
      (.live (some { d with processing := d.processing + (w.2 - w.1) }), ls) from rfl, ih]
    simp [waited, Nat.add_assoc]

theorem fold_waits_none (layer : Option Format) (k : Nat) (ws : List (Nat × Nat)) (ls : List Line) :
    (ws.map fun w => Op.poll k w.1 w.2 .pending).foldl (oneStep layer) (.live none, ls) = (.live none, ls) := by
  induction ws with
  | nil => rfl
  | cons w ws ih => exact ih

/-- The line of a request, as the layer makes it. -/
def lineOf (f : Format) (s : Served) : Line :=
  match s.response with
  | some r => (f.start (attrs s.client s.ts s.req)).add (recorded r s.total s.worked)
  | none => f.start (attrs s.client s.ts s.req)

theorem begun_some (f : Format) (k : Nat) (s : Served) :
    ∃ p, (s.begun k).foldl (oneStep (some f)) (.unmade, []) =
      (.live (some { line := some (lineOf f s), start := s.start, processing := p }), []) := by
  unfold Served.begun
  rw [List.cons_append, List.foldl_cons, List.foldl_append]
  rw [show oneStep (some f) (.unmade, []) (.call k s.others s.client s.ts s.req s.start) =
    (.live (some { line := some (f.start (attrs s.client s.ts s.req)), start := s.start, processing := 0 }), []) from rfl,
    fold_waits]
  unfold lineOf Served.response Served.total Served.worked
  rcases s.ending with _ | ⟨a, b, _ | r⟩
  · exact ⟨_, rfl⟩
  · exact ⟨_, rfl⟩
  · refine ⟨0 + waited s.waits, ?_⟩
    simp [oneStep, poll, waited, Nat.add_comm]

theorem begun_none (k : Nat) (s : Served) :
    ∃ d, (s.begun k).foldl (oneStep none) (.unmade, []) = (.live d, []) ∧ ∀ x, d = some x → x.line = none := by
  unfold Served.begun
  rw [List.cons_append, List.foldl_cons, List.foldl_append]
  rw [show oneStep none (.unmade, []) (.call k s.others s.client s.ts s.req s.start) =
    (call none s.others s.client s.ts s.req s.start, []) from rfl]
  unfold call
  cases ho : s.others
  · simp only [Option.isSome_none, Bool.or_self, Bool.false_eq_true, if_false]
    rw [fold_waits_none]
    rcases s.ending with _ | ⟨a, b, _ | r⟩ <;> exact ⟨none, rfl, fun _ h => nomatch h⟩
  · simp only [Bool.or_true, if_true]
    rw [fold_waits]
    rcases s.ending with _ | ⟨a, b, _ | r⟩ <;> exact ⟨_, rfl, fun _ h => by cases h; rfl⟩

/-! ## One line per request -/

theorem start_apache (c : Client) (ts : Str) (r : Request) :
    Format.start .apache (attrs c ts r) = .text (c.addr ++ " ".toList ++ c.id.getD "-".toList ++ " - [".toList ++ ts ++
      "] \"".toList ++ r.method ++ " ".toList ++ r.uri ++ " ".toList ++ r.version ++ "\"".toList) := by
  simp [Format.start, Line.add, attrs, visit, skipped]

theorem lineOf_apache (s : Served) : lineOf .apache s = .text s.apacheLine := by
  unfold lineOf Served.apacheLine
  rw [start_apache]
  cases s.response with
  | none => simp
  | some r =>
    simp only [Line.add, recorded]
    cases (r.headers.get "content-length").bind toStr <;> simp [visit, skipped]

theorem lines_eq (f : Format) (ops : List Op) (k : Nat) (s : Served) (h : about k ops = s.ops k) :
    linesOf k (run (some f) ops).out = [lineOf f s] := by
  have hs := seen_run (some f) ops k
  obtain ⟨p, hp⟩ := begun_some f k s
  rw [h, Served.ops, List.foldl_append, hp] at hs
  exact congrArg Prod.snd hs

theorem no_lines_yet (f : Format) (ops : List Op) (k : Nat) (s : Served) (h : about k ops = s.begun k) :
    linesOf k (run (some f) ops).out = [] := by
  have hs := seen_run (some f) ops k
  obtain ⟨p, hp⟩ := begun_some f k s
  rw [h, hp] at hs
  exact congrArg Prod.snd hs

theorem no_lines_unmade (l : Option Format) (ops : List Op) (k : Nat) (h : about k ops = []) :
    linesOf k (run l ops).out = [] := by
  have hs := seen_run l ops k
  rw [h] at hs
  exact congrArg Prod.snd hs

/-- **C110.** In the Apache format a request gives one line, whatever became of it and whatever other requests there
were: who asked, when, for what, and the status of the response, if there was one. -/
theorem C110_one_apache_line_per_request (ops : List Op) (k : Nat) (s : Served) (h : about k ops = s.ops k) :
    linesOf k (run (some .apache) ops).out = [.text s.apacheLine] := by
  rw [lines_eq .apache ops k s h, lineOf_apache]

/-- **C110.** As long as a request is being served there is no line for it. -/
theorem C110_no_line_before_the_end (f : Format) (ops : List Op) (k : Nat) (s : Served)
    (h : about k ops = s.begun k ∨ about k ops = []) : linesOf k (run (some f) ops).out = [] := by
  rcases h with h | h
  · exact no_lines_yet f ops k s h
  · exact no_lines_unmade _ ops k h

theorem drop_not_begun (s : Served) (k : Nat) : ∀ j, Op.drop j ∉ s.begun k := by
  intro j h
  unfold Served.begun at h
  rcases he : s.ending with _ | ⟨a, b, _ | r⟩ <;> simp [he] at h

theorem split_last {α : Type} {l x y : List α} {a : α} (hn : a ∉ l) (h : x ++ a :: y = l ++ [a]) : x = l := by
  rcases List.append_eq_append_iff.1 h with ⟨t, ht, hy⟩ | ⟨t, hx, hy⟩
  · cases t with
    | nil => simpa using ht.symm
    | cons b t =>
      simp only [List.cons_append, List.cons.injEq] at hy
      exact absurd (by rw [ht, hy.1]; simp) hn
  · cases t with
    | nil => simpa using hx
    | cons b t =>
      have := congrArg List.length hy
      simp at this

theorem order_prefix (f : Format) (p q : List Op) (h : Sound (p ++ q)) :
    (run (some f) p).out.map (·.1) = drops p := by
  induction p using snoc_induction generalizing q with
  | nil => rfl
  | snoc p o ih =>
    have h' : Sound (p ++ (o :: q)) := by simpa using h
    have ih := ih (o :: q) h'
    rw [run_snoc]
    cases o with
    | call j others c ts r now =>
      rw [show drops (p ++ [Op.call j others c ts r now]) = drops p by simp [drops], ← ih]
      cases hf : (run (some f) p).futs j <;> simp [step, hf]
    | poll j a b inner =>
      rw [show drops (p ++ [Op.poll j a b inner]) = drops p by simp [drops], ← ih]
      cases hf : (run (some f) p).futs j <;> simp [step, hf]
    | drop j =>
      have hab : about j (p ++ (Op.drop j :: q)) = about j p ++ Op.drop j :: about j q := by
        simp [about, Op.key]
      obtain ⟨s, hs⟩ : ∃ s : Served, about j p = s.begun j := by
        rcases h' j with h0 | ⟨s, h1 | h2⟩
        · rw [hab] at h0; simp at h0
        · rw [hab] at h1
          exact absurd (by rw [← h1]; simp) (drop_not_begun s j j)
        · rw [hab, Served.ops] at h2
          exact ⟨s, split_last (drop_not_begun s j j) h2⟩
      have hr := seen_run (some f) p j
      obtain ⟨pr, hp⟩ := begun_some f j s
      rw [hs, hp] at hr
      have hf : (run (some f) p).futs j = _ := congrArg Prod.fst hr
      rw [show drops (p ++ [Op.drop j]) = drops p ++ [j] by simp [drops], ← ih]
      simp [step, hf]

/-- **C110.** The lines come in the order in which the requests ended, one for each, and there are no other lines. -/
theorem C110_lines_in_order_of_ending (f : Format) (ops : List Op) (h : Sound ops) :
    (run (some f) ops).out.map (·.1) = drops ops :=
  order_prefix f ops [] (by simpa using h)

/-! ## Reading a line back -/

theorem not_mem_decimal (n : Nat) : ' ' ∉ Text.decimal n := Text.not_digit_of ' ' (by decide) n

/-- **C110.** A line can be read: if no part of it has a blank within, a reader who cuts it at the blanks gets the
request's client, identity, time, method, URI and version and the response's status, whatever characters they have. -/
theorem C110_apache_line_reads_back (s : Served)
    (h : ∀ t ∈ [s.client.addr, s.client.id.getD ['-'], s.ts, s.req.method, s.req.uri, s.req.version], ' ' ∉ t)
    (hst : ∀ r, s.response = some r → r.status ≤ 65535) : readLine s.apacheLine = some s.entry := by
  simp only [List.mem_cons, List.not_mem_nil, or_false, forall_eq_or_imp, forall_eq] at h
  obtain ⟨h1, h2, h3, h4, h5, h6⟩ := h
  have hread : ∀ st, readParts s.client.addr (s.client.id.getD ['-']) ('[' :: (s.ts ++ [']'])) ('"' :: s.req.method)
      s.req.uri (s.req.version ++ ['"']) st = some { s.entry with status := st } := by
    intro st
    simp [readParts, Text.stripPrefix, Served.entry]
  have hsplit : ∀ last : List Str, (∀ x ∈ last, ' ' ∉ x) →
      Text.split ' ' (Text.join ' ' ([s.client.addr, s.client.id.getD ['-'], ['-'], '[' :: (s.ts ++ [']']), '"' :: s.req.method,
        s.req.uri, s.req.version ++ ['"']] ++ last)) = [s.client.addr, s.client.id.getD ['-'], ['-'], '[' :: (s.ts ++ [']']),
        '"' :: s.req.method, s.req.uri, s.req.version ++ ['"']] ++ last := by
    intro last hl
    apply Text.split_join
    · simp
    · intro p hp
      simp only [List.cons_append, List.nil_append, List.mem_cons] at hp
      rcases hp with rfl | rfl | rfl | rfl | rfl | rfl | rfl | hp
      · exact h1
      · exact h2
      · decide
      · simp [h3]
      · simp [h4]
      · exact h5
      · simp [h6]
      · exact hl p hp
  cases hr : s.response with
  | none =>
    have hl : s.apacheLine = Text.join ' ' ([s.client.addr, s.client.id.getD ['-'], ['-'], '[' :: (s.ts ++ [']']),
        '"' :: s.req.method, s.req.uri, s.req.version ++ ['"']] ++ []) := by
      simp [Served.apacheLine, hr, Text.join]
    unfold readLine
    rw [hl, hsplit [] (by simp)]
    simp only [List.append_nil, String.toList_ofList, if_true]
    rw [if_pos (by decide), hread]
    simp [Served.entry, hr]
  | some r =>
    have hl : s.apacheLine = Text.join ' ' ([s.client.addr, s.client.id.getD ['-'], ['-'], '[' :: (s.ts ++ [']']),
        '"' :: s.req.method, s.req.uri, s.req.version ++ ['"']] ++ [Text.decimal r.status]) := by
      simp [Served.apacheLine, hr, Text.join]
    unfold readLine
    rw [hl, hsplit [Text.decimal r.status] (by simp [not_mem_decimal])]
    simp only [List.cons_append, List.nil_append]
    rw [if_pos (by decide), Text.parseUnsigned_decimal, if_pos (hst r hr), Option.bind_some, hread]
    simp [Served.entry, hr]

/-! ## The JSON object -/

theorem readable_eq (h : HeaderMap) (n : String) : (h.get n).bind toStr = readable h n := by
  rw [HeaderMap.get_eq_head]
  unfold readable
  cases h.getAll n with
  | nil => rfl
  | cons v l =>
    simp only [List.head?_cons, Option.bind_some, toStr, List.all_eq_true]

theorem traceId_eq (r : Request) :
    traceId r = ((traceHeader r.headers).bind (readable r.headers)).getD [] := by
  have key : ∀ n : String, r.headers.getAll n ≠ [] → ∃ v, r.headers.get n = some v := by
    intro n hn
    rw [HeaderMap.get_eq_head]
    cases hg : r.headers.getAll n with
    | nil => exact absurd hg hn
    | cons v l => exact ⟨v, rfl⟩
  have key0 : ∀ n : String, r.headers.getAll n = [] → r.headers.get n = none := by
    intro n hn
    rw [HeaderMap.get_eq_head, hn]; rfl
  unfold traceId traceHeader
  by_cases h1 : r.headers.getAll "x-b3-traceid" = []
  · by_cases h2 : r.headers.getAll "x-request-id" = []
    · by_cases h3 : r.headers.getAll "x-amzn-trace-id" = []
      · simp [h1, h2, h3, key0]
      · simp [List.find?, h1, h2, h3, key0, ← readable_eq]
    · obtain ⟨v, hv⟩ := key _ h2
      simp [List.find?, h1, h2, key0, ← readable_eq, hv]
  · obtain ⟨v, hv⟩ := key _ h1
    simp [List.find?, h1, ← readable_eq, hv]

theorem getHeader_eq (r : Request) (n : String) : getHeader r n = (readable r.headers n).getD [] := by
  unfold getHeader; rw [readable_eq]

/-- **C110.** In the JSON format a request gives one object, with the fields of the request always, and those of the
response if there was one; there are no other fields. -/
theorem C110_one_json_object_per_request (ops : List Op) (k : Nat) (s : Served) (h : about k ops = s.ops k) :
    ∃ o, linesOf k (run (some .json) ops).out = [.object o] ∧ ∀ name, Assoc.lookup name o = s.field name := by
  rw [lines_eq .json ops k s h]
  unfold lineOf
  cases hr : s.response with
  | none =>
    refine ⟨_, rfl, ?_⟩
    intro name
    simp only [attrs, List.foldl_cons, List.foldl_nil]
    by_cases n0 : name = "client.addr"
    · subst n0; simp [Assoc.lookup_put, Assoc.lookup, Served.field, hr, traceId_eq, getHeader_eq]
    by_cases n1 : name = "client.id"
    · subst n1; simp [Assoc.lookup_put, Assoc.lookup, Served.field, hr, traceId_eq, getHeader_eq]
    by_cases n2 : name = "timestamp"
    · subst n2; simp [Assoc.lookup_put, Assoc.lookup, Served.field, hr, traceId_eq, getHeader_eq]
    by_cases n3 : name = "method"
    · subst n3; simp [Assoc.lookup_put, Assoc.lookup, Served.field, hr, traceId_eq, getHeader_eq]
    by_cases n4 : name = "uri"
    · subst n4; simp [Assoc.lookup_put, Assoc.lookup, Served.field, hr, traceId_eq, getHeader_eq]
    by_cases n5 : name = "version"
    · subst n5; simp [Assoc.lookup_put, Assoc.lookup, Served.field, hr, traceId_eq, getHeader_eq]
    by_cases n6 : name = "trace_id"
    · subst n6; simp [Assoc.lookup_put, Assoc.lookup, Served.field, hr, traceId_eq, getHeader_eq]
    by_cases n7 : name = "request_bytes"
    · subst n7; simp [Assoc.lookup_put, Assoc.lookup, Served.field, hr, traceId_eq, getHeader_eq]
    by_cases n8 : name = "user_agent"
    · subst n8; simp [Assoc.lookup_put, Assoc.lookup, Served.field, hr, traceId_eq, getHeader_eq]
    by_cases n9 : name = "host"
    · subst n9; simp [Assoc.lookup_put, Assoc.lookup, Served.field, hr, traceId_eq, getHeader_eq]
    by_cases n10 : name = "response_bytes"
    · subst n10; simp [Assoc.lookup_put, Assoc.lookup, Served.field, hr, traceId_eq, getHeader_eq]
    by_cases n11 : name = "status"
    · subst n11; simp [Assoc.lookup_put, Assoc.lookup, Served.field, hr, traceId_eq, getHeader_eq]
    by_cases n12 : name = "total_ns"
    · subst n12; simp [Assoc.lookup_put, Assoc.lookup, Served.field, hr, traceId_eq, getHeader_eq]
    by_cases n13 : name = "processing_ns"
    · subst n13; simp [Assoc.lookup_put, Assoc.lookup, Served.field, hr, traceId_eq, getHeader_eq]
    simp [Assoc.lookup_put, Assoc.lookup, Served.field, hr, traceId_eq, getHeader_eq, n0, n1, n2, n3, n4, n5, n6, n7, n8, n9, n10, n11, n12, n13, Ne.symm n0, Ne.symm n1, Ne.symm n2, Ne.symm n3, Ne.symm n4, Ne.symm n5, Ne.symm n6, Ne.symm n7, Ne.symm n8, Ne.symm n9, Ne.symm n10, Ne.symm n11, Ne.symm n12, Ne.symm n13]
  | some r =>
    refine ⟨_, rfl, ?_⟩
    intro name
    simp only [attrs, recorded, readable_eq, List.foldl_cons, List.foldl_nil, List.foldl_append]
    cases hc : readable r.headers "content-length" with
    | none =>
      simp only [List.foldl_cons, List.foldl_nil]
      by_cases n0 : name = "client.addr"
      · subst n0; simp [Assoc.lookup_put, Assoc.lookup, Served.field, hr, traceId_eq, getHeader_eq, hc]
      by_cases n1 : name = "client.id"
      · subst n1; simp [Assoc.lookup_put, Assoc.lookup, Served.field, hr, traceId_eq, getHeader_eq, hc]
      by_cases n2 : name = "timestamp"
      · subst n2; simp [Assoc.lookup_put, Assoc.lookup, Served.field, hr, traceId_eq, getHeader_eq, hc]
      by_cases n3 : name = "method"
      · subst n3; simp [Assoc.lookup_put, Assoc.lookup, Served.field, hr, traceId_eq, getHeader_eq, hc]
      by_cases n4 : name = "uri"
      · subst n4; simp [Assoc.lookup_put, Assoc.lookup, Served.field, hr, traceId_eq, getHeader_eq, hc]
      by_cases n5 : name = "version"
      · subst n5; simp [Assoc.lookup_put, Assoc.lookup, Served.field, hr, traceId_eq, getHeader_eq, hc]
      by_cases n6 : name = "trace_id"
      · subst n6; simp [Assoc.lookup_put, Assoc.lookup, Served.field, hr, traceId_eq, getHeader_eq, hc]
      by_cases n7 : name = "request_bytes"
      · subst n7; simp [Assoc.lookup_put, Assoc.lookup, Served.field, hr, traceId_eq, getHeader_eq, hc]
      by_cases n8 : name = "user_agent"
      · subst n8; simp [Assoc.lookup_put, Assoc.lookup, Served.field, hr, traceId_eq, getHeader_eq, hc]
      by_cases n9 : name = "host"
      · subst n9; simp [Assoc.lookup_put, Assoc.lookup, Served.field, hr, traceId_eq, getHeader_eq, hc]
      by_cases n10 : name = "response_bytes"
      · subst n10; simp [Assoc.lookup_put, Assoc.lookup, Served.field, hr, traceId_eq, getHeader_eq, hc]
      by_cases n11 : name = "status"
      · subst n11; simp [Assoc.lookup_put, Assoc.lookup, Served.field, hr, traceId_eq, getHeader_eq, hc]
      by_cases n12 : name = "total_ns"
      · subst n12; simp [Assoc.lookup_put, Assoc.lookup, Served.field, hr, traceId_eq, getHeader_eq, hc]
      by_cases n13 : name = "processing_ns"
      · subst n13; simp [Assoc.lookup_put, Assoc.lookup, Served.field, hr, traceId_eq, getHeader_eq, hc]
      simp [Assoc.lookup_put, Assoc.lookup, Served.field, hr, traceId_eq, getHeader_eq, hc, n0, n1, n2, n3, n4, n5, n6, n7, n8, n9, n10, n11, n12, n13, Ne.symm n0, Ne.symm n1, Ne.symm n2, Ne.symm n3, Ne.symm n4, Ne.symm n5, Ne.symm n6, Ne.symm n7, Ne.symm n8, Ne.symm n9, Ne.symm n10, Ne.symm n11, Ne.symm n12, Ne.symm n13]
    | some v =>
      simp only [List.foldl_cons, List.foldl_nil]
      by_cases n0 : name = "client.addr"
      · subst n0; simp [Assoc.lookup_put, Assoc.lookup, Served.field, hr, traceId_eq, getHeader_eq, hc]
      by_cases n1 : name = "client.id"
      · subst n1; simp [Assoc.lookup_put, Assoc.lookup, Served.field, hr, traceId_eq, getHeader_eq, hc]
      by_cases n2 : name = "timestamp"
      · subst n2; simp [Assoc.lookup_put, Assoc.lookup, Served.field, hr, traceId_eq, getHeader_eq, hc]
      by_cases n3 : name = "method"
      · subst n3; simp [Assoc.lookup_put, Assoc.lookup, Served.field, hr, traceId_eq, getHeader_eq, hc]
      by_cases n4 : name = "uri"
      · subst n4; simp [Assoc.lookup_put, Assoc.lookup, Served.field, hr, traceId_eq, getHeader_eq, hc]
      by_cases n5 : name = "version"
      · subst n5; simp [Assoc.lookup_put, Assoc.lookup, Served.field, hr, traceId_eq, getHeader_eq, hc]
      by_cases n6 : name = "trace_id"
      · subst n6; simp [Assoc.lookup_put, Assoc.lookup, Served.field, hr, traceId_eq, getHeader_eq, hc]
      by_cases n7 : name = "request_bytes"
      · subst n7; simp [Assoc.lookup_put, Assoc.lookup, Served.field, hr, traceId_eq, getHeader_eq, hc]
      by_cases n8 : name = "user_agent"
      · subst n8; simp [Assoc.lookup_put, Assoc.lookup, Served.field, hr, traceId_eq, getHeader_eq, hc]
      by_cases n9 : name = "host"
      · subst n9; simp [Assoc.lookup_put, Assoc.lookup, Served.field, hr, traceId_eq, getHeader_eq, hc]
      by_cases n10 : name = "response_bytes"
      · subst n10; simp [Assoc.lookup_put, Assoc.lookup, Served.field, hr, traceId_eq, getHeader_eq, hc]
      by_cases n11 : name = "status"
      · subst n11; simp [Assoc.lookup_put, Assoc.lookup, Served.field, hr, traceId_eq, getHeader_eq, hc]
      by_cases n12 : name = "total_ns"
      · subst n12; simp [Assoc.lookup_put, Assoc.lookup, Served.field, hr, traceId_eq, getHeader_eq, hc]
      by_cases n13 : name = "processing_ns"
      · subst n13; simp [Assoc.lookup_put, Assoc.lookup, Served.field, hr, traceId_eq, getHeader_eq, hc]
      simp [Assoc.lookup_put, Assoc.lookup, Served.field, hr, traceId_eq, getHeader_eq, hc, n0, n1, n2, n3, n4, n5, n6, n7, n8, n9, n10, n11, n12, n13, Ne.symm n0, Ne.symm n1, Ne.symm n2, Ne.symm n3, Ne.symm n4, Ne.symm n5, Ne.symm n6, Ne.symm n7, Ne.symm n8, Ne.symm n9, Ne.symm n10, Ne.symm n11, Ne.symm n12, Ne.symm n13]

/-! ## Times -/

theorem worked_le (ws : List (Nat × Nat)) (st a b : Nat)
    (h : (st :: ws.flatMap (fun w => [w.1, w.2]) ++ [a, b]).Pairwise (· ≤ ·)) :
    (ws.map fun w => w.2 - w.1).sum + (b - a) ≤ b - st := by
  induction ws generalizing st with
  | nil =>
    simp only [List.flatMap_nil, List.cons_append, List.nil_append, List.pairwise_cons, List.mem_cons, List.not_mem_nil,
      or_false, forall_eq_or_imp, forall_eq] at h
    simp only [List.map_nil, List.sum_nil]
    omega
  | cons w ws ih =>
    simp only [List.flatMap_cons, List.cons_append, List.nil_append, List.pairwise_cons] at h
    obtain ⟨h0, h1, h2⟩ := h
    have := ih w.2 (by rw [List.cons_append]; exact List.pairwise_cons.2 h2)
    have hb : w.2 ≤ b := h2.1 b (by simp)
    have hw : w.1 ≤ w.2 := h1 w.2 (by simp)
    have hs : st ≤ w.1 := h0 w.1 (by simp)
    simp only [List.map_cons, List.sum_cons]
    omega

/-- **C110.** If the clock does not go back, the time a request is said to have been worked on is no longer than the time
it is said to have taken. -/
theorem C110_worked_on_no_longer_than_it_took (s : Served) (r : Response) (hr : s.response = some r)
    (h : s.instants.Pairwise (· ≤ ·)) : s.worked ≤ s.total := by
  unfold Served.response at hr
  unfold Served.instants at h
  unfold Served.worked Served.total
  rcases he : s.ending with _ | ⟨a, b, x⟩
  · rw [he] at hr; cases hr
  · rw [he] at h
    exact worked_le s.waits s.start a b h

/-! ## No log, and no difference -/

/-- **C110.** Without an access log nothing is printed, even if another part of the proxy's logging takes the span. -/
theorem C110_nothing_printed_unless_asked (ops : List Op) : (run none ops).out = [] := by
  have : (run none ops).out = [] ∧ ∀ k d, (run none ops).futs k = .live (some d) → d.line = none := by
    induction ops using snoc_induction with
    | nil => exact ⟨rfl, fun _ _ h => nomatch h⟩
    | snoc ops o ih =>
      obtain ⟨ho, hf⟩ := ih
      rw [run_snoc]
      cases o with
      | call j others c ts r now =>
        cases hj : (run none ops).futs j with
        | unmade =>
          refine ⟨by simp [step, hj, ho], ?_⟩
          intro k d hd
          simp only [step, hj, setAt] at hd
          split at hd
          · unfold call at hd
            split at hd
            · cases hd; rfl
            · cases hd
          · exact hf k d hd
        | live x => simp only [step, hj]; exact ⟨ho, hf⟩
        | gone => simp only [step, hj]; exact ⟨ho, hf⟩
      | poll j a b inner =>
        cases hj : (run none ops).futs j with
        | unmade => simp only [step, hj]; exact ⟨ho, hf⟩
        | gone => simp only [step, hj]; exact ⟨ho, hf⟩
        | live x =>
          refine ⟨by simp [step, hj, ho], ?_⟩
          intro k d hd
          simp only [step, hj, setAt] at hd
          split at hd
          · cases x with
            | none => cases hd
            | some x =>
              have hx := hf j x hj
              cases inner <;> simp only [poll, Fut.live.injEq, Option.some.injEq] at hd <;> subst hd <;> simp [hx]
          · exact hf k d hd
      | drop j =>
        rcases hj : (run none ops).futs j with _ | (_ | ⟨_ | l, st, pr⟩) | _
        · simp only [step, hj]; exact ⟨ho, hf⟩
        · refine ⟨by simp [step, hj, ho], ?_⟩
          intro k d hd
          simp only [step, hj, setAt] at hd
          split at hd
          · cases hd
          · exact hf k d hd
        · refine ⟨by simp [step, hj, ho], ?_⟩
          intro k d hd
          simp only [step, hj, setAt] at hd
          split at hd
          · cases hd
          · exact hf k d hd
        · exact absurd (hf j _ hj) (by simp)
        · simp only [step, hj]; exact ⟨ho, hf⟩
  exact this.1

theorem live_of_begun (l : Option Format) (os : List Op) (s : Fut × List Line) (d : Option Data) (hs : s.1 = .live d)
    (h : ∀ o ∈ os, ∀ k, o ≠ .drop k) : ∃ d', (os.foldl (oneStep l) s).1 = .live d' := by
  induction os generalizing s d with
  | nil => exact ⟨d, hs⟩
  | cons o os ih =>
    rw [List.foldl_cons]
    have h' : ∀ o ∈ os, ∀ k, o ≠ .drop k := fun o ho => h o (List.mem_cons_of_mem _ ho)
    cases o with
    | call j others c ts r now => exact ih _ d (by simp [oneStep, hs]) h'
    | poll j a b inner => exact ih _ (poll d a b inner).1 (by simp [oneStep, hs]) h'
    | drop j => exact absurd rfl (h _ (by simp) j)

theorem poll_answer (d : Option Data) (a b : Nat) (inner : Poll) : (poll d a b inner).2 = inner := by
  cases d <;> cases inner <;> rfl

theorem answers_prefix (l : Option Format) (p q : List Op) (h : Sound (p ++ q)) :
    (run l p).answers = polls p := by
  induction p using snoc_induction generalizing q with
  | nil => rfl
  | snoc p o ih =>
    have h' : Sound (p ++ (o :: q)) := by simpa using h
    have ih := ih (o :: q) h'
    rw [run_snoc]
    cases o with
    | call j others c ts r now =>
      rw [show polls (p ++ [Op.call j others c ts r now]) = polls p by simp [polls], ← ih]
      cases hf : (run l p).futs j <;> simp [step, hf]
    | drop j =>
      rw [show polls (p ++ [Op.drop j]) = polls p by simp [polls], ← ih]
      rcases hf : (run l p).futs j with _ | (_ | ⟨_ | x, st, pr⟩) | _ <;> simp [step, hf]
    | poll j a b inner =>
      have hab : about j (p ++ (Op.poll j a b inner :: q)) = about j p ++ Op.poll j a b inner :: about j q := by
        simp [about, Op.key]
      -- the polls of a request follow its call, and come before it is dropped
      have key : ∀ s : Served, ∀ t, about j p ++ Op.poll j a b inner :: t = s.begun j →
          ∃ d, (run l p).futs j = .live d := by
        intro s t ht
        have hr := congrArg Prod.fst (seen_run l p j)
        have hnd : ∀ o ∈ about j p, ∀ k, o ≠ .drop k := by
          intro o ho k hk
          exact drop_not_begun s j k (by rw [← ht, ← hk]; simp [ho])
        cases hp : about j p with
        | nil =>
          rw [hp] at ht
          simp [Served.begun] at ht
        | cons o os =>
          rw [hp] at ht hr hnd
          have ho : o = .call j s.others s.client s.ts s.req s.start := by
            simp only [Served.begun, List.cons_append, List.cons.injEq] at ht
            exact ht.1
          rw [List.foldl_cons] at hr
          have hc : ∃ d, (oneStep l (.unmade, []) o).1 = .live d := by
            rw [ho]
            simp only [oneStep, call]
            split
            · exact ⟨_, rfl⟩
            · exact ⟨_, rfl⟩
          obtain ⟨d, hd⟩ := hc
          obtain ⟨d', hd'⟩ := live_of_begun l os _ d hd fun o ho => hnd o (List.mem_cons_of_mem _ ho)
          exact ⟨d', by rw [← hd']; exact hr⟩
      have hlive : ∃ d, (run l p).futs j = .live d := by
        rcases h' j with h0 | ⟨s, h1 | h2⟩
        · rw [hab] at h0; simp at h0
        · rw [hab] at h1
          exact key s _ h1
        · rw [hab, Served.ops] at h2
          rcases List.eq_nil_or_concat (about j q) with hq | ⟨t, x, hq⟩
          · rw [hq] at h2
            have := (List.append_inj' h2 rfl).2
            simp at this
          · rw [hq, List.concat_eq_append, show about j p ++ Op.poll j a b inner :: (t ++ [x]) =
              (about j p ++ Op.poll j a b inner :: t) ++ [x] by simp] at h2
            exact key s t (List.append_inj' h2 rfl).1
      obtain ⟨d, hd⟩ := hlive
      rw [show polls (p ++ [Op.poll j a b inner]) = polls p ++ [(j, inner)] by simp [polls], ← ih]
      simp [step, hd, poll_answer]

/-- **C110.** The log makes no difference to the requests: each is answered as its service answered it, in the order in
which it did. -/
theorem C110_answers_are_passed_on (l : Option Format) (ops : List Op) (h : Sound ops) :
    (run l ops).answers = polls ops :=
  answers_prefix l ops [] (by simpa using h)

/-! ## Asking for it -/

/-- **C110.** There is an access log in a format if the user asked for that format, and did not turn logging off. -/
theorem C110_when_there_is_a_log (s : Settings) (f : Format) :
    layer s = some f ↔
      (Text.trim s.filter).map Text.lower ≠ ['o', 'f', 'f'] ∧ ∃ v, s.accessLog = some v ∧ Asks v f := by
  have hoff : "off".toList.map Text.lower = ['o', 'f', 'f'] := by decide
  have hjson : "json".toList.map Text.lower = ['j', 's', 'o', 'n'] := by decide
  have hap : "apache".toList.map Text.lower = ['a', 'p', 'a', 'c', 'h', 'e'] := by decide
  unfold layer parseFormat Text.eqIgnoreCase
  rw [hoff]
  simp only [hjson, hap, beq_iff_eq]
  by_cases h : (Text.trim s.filter).map Text.lower = ['o', 'f', 'f']
  · simp [h]
  · simp only [h, if_false, ne_eq, not_false_eq_true, true_and]
    cases ha : s.accessLog with
    | none => simp
    | some v =>
      simp only [Option.bind_some, Option.some.injEq, exists_eq_left']
      by_cases h1 : v.map Text.lower = ['j', 's', 'o', 'n']
      · cases f <;> simp [Asks, h1]
      · by_cases h2 : v.map Text.lower = ['a', 'p', 'a', 'c', 'h', 'e'] <;> cases f <;> simp [Asks, h1, h2]

/-! ## Limits -/

/-- Turning the proxy's own log off turns the access log off too, although it was asked for. -/
theorem C110_limit_off_turns_off_the_access_log :
    ∃ s : Settings, s.accessLog = some "apache".toList ∧ layer s = none :=
  ⟨{ filter := "off".toList, accessLog := some "apache".toList }, rfl, by decide⟩

/-- A request that has an unreadable trace header is logged without a trace, although it has a readable one too. -/
theorem C110_limit_unreadable_trace_hides_the_next :
    ∃ r : Request, readable r.headers "x-request-id" = some "abc".toList ∧ traceId r = [] :=
  ⟨{ method := [], uri := [], version := [],
     headers := [("x-b3-traceid", [Char.ofNat 200]), ("x-request-id", "abc".toList)] }, by decide, by decide⟩

/-! ## Examples -/

def client : Client := { addr := "10.0.0.1:4143".toList, id := some "a.ns.serviceaccount.identity.linkerd.cluster.local".toList }

def get (uri : String) : Request :=
  { method := "GET".toList, uri := uri.toList, version := "HTTP/2.0".toList,
    headers := [("x-request-id", "r1".toList), ("user-agent", "curl".toList)] }

/-- Two requests at once: the second is answered first, the first is given up. -/
def first : Served :=
  { others := false, client, ts := "2024-01-01T00:00:00Z".toList, req := get "/a", start := 5, waits := [(6, 9)], ending := none }

def second : Served :=
  { others := false, client := { client with id := none }, ts := "2024-01-01T00:00:01Z".toList, req := get "/b\"", start := 7,
    waits := [(9, 10), (20, 22)], ending := some (30, 34, some { status := 404, headers := [("content-length", "12".toList)] }) }

def both : List Op :=
  [ .call 1 false client first.ts first.req 5, .poll 1 6 9 .pending, .call 2 false second.client second.ts second.req 7,
    .poll 2 9 10 .pending, .poll 2 20 22 .pending, .poll 2 30 34 (.ok { status := 404, headers := [("content-length", "12".toList)] }),
    .drop 2, .drop 1 ]

theorem both_first : about 1 both = first.ops 1 := by decide
theorem both_second : about 2 both = second.ops 2 := by decide

theorem both_sound : Sound both := by
  intro k
  by_cases h1 : k = 1
  · exact .inr ⟨first, .inr (h1 ▸ both_first)⟩
  · by_cases h2 : k = 2
    · exact .inr ⟨second, .inr (h2 ▸ both_second)⟩
    · refine .inl ?_
      have h1' : ¬ 1 = k := fun h => h1 h.symm
      have h2' : ¬ 2 = k := fun h => h2 h.symm
      simp [about, both, Op.key, h1', h2']

example : (run (some .apache) both).out =
    [ (2, .text "10.0.0.1:4143 - - [2024-01-01T00:00:01Z] \"GET /b\" HTTP/2.0\" 404".toList),
      (1, .text ("10.0.0.1:4143 a.ns.serviceaccount.identity.linkerd.cluster.local - [2024-01-01T00:00:00Z] " ++
        "\"GET /a HTTP/2.0\"").toList) ] := by decide +kernel

example : linesOf 2 (run (some .apache) both).out = [.text second.apacheLine] :=
  C110_one_apache_line_per_request both 2 second both_second

example : (run (some .json) both).out.map (·.1) = [2, 1] := C110_lines_in_order_of_ending .json both both_sound

example : readLine second.apacheLine = some second.entry :=
  C110_apache_line_reads_back second (by decide) (by intro r h; cases h; decide)

example : second.entry.uri = "/b\"".toList ∧ second.entry.status = some 404 := ⟨rfl, rfl⟩

example : ∃ o, linesOf 2 (run (some .json) both).out = [.object o] ∧ Assoc.lookup "total_ns" o = some "27".toList ∧
    Assoc.lookup "processing_ns" o = some "7".toList ∧ Assoc.lookup "trace_id" o = some "r1".toList ∧
    Assoc.lookup "response_bytes" o = some "12".toList := by
  obtain ⟨o, ho, hf⟩ := C110_one_json_object_per_request both 2 second both_second
  refine ⟨o, ho, ?_⟩
  simp only [hf]
  decide +kernel

example : second.worked ≤ second.total :=
  C110_worked_on_no_longer_than_it_took second _ rfl (by decide)

example : (run (some .json) both).answers = polls both ∧ (polls both).length = 4 :=
  ⟨C110_answers_are_passed_on _ both both_sound, by decide⟩

example : layer { filter := "warn,linkerd=info".toList, accessLog := some "JSON".toList } = some .json :=
  (C110_when_there_is_a_log _ _).2 ⟨by decide, _, rfl, by unfold Asks; decide⟩

example : linesOf 1 (run (some .apache) (both.take 7)).out = [] :=
  C110_no_line_before_the_end .apache _ 1 first (.inl (by decide))

end Verif.AccessLog
