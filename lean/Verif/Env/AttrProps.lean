import Verif.Env.ConfigProps
/-!
# C103 — settings that are read in only one way, and attributes that are written in files
-/
namespace Verif.Env
open Verif.HttpRoute (Str)
open Text

/-- A line as files have them: ended by a line feed, or by a carriage return and a line feed. -/
inductive Ended : Str → Str → Prop where
  | lf (l : Str) : l.getLast? ≠ some '\r' → Ended l (l ++ ['\n'])
  | crlf (l : Str) : Ended l (l ++ ['\r', '\n'])

theorem lines_cons (l rest : Str) (h : '\n' ∉ l) : lines (l ++ '\n' :: rest) = dropCr l :: lines rest := by
  unfold lines
  rw [split_append _ _ _ h]
  dsimp only
  have hn := split_ne_nil '\n' rest
  rw [List.dropLast_cons_of_ne_nil hn, List.map_cons, List.cons_append, List.getLast?_cons]
  cases hs : (split '\n' rest).getLast? with
  | none => exact absurd (List.getLast?_eq_none_iff.1 hs) hn
  | some x => rfl

theorem lines_ended (ls : List (Str × Str)) (last : Str) (hl : '\n' ∉ last) (h : ∀ l ∈ ls, Ended l.1 l.2 ∧ '\n' ∉ l.1) :
    lines ((ls.map (·.2)).flatten ++ last) = ls.map (·.1) ++ (if last = [] then [] else [last]) := by
  induction ls with
  | nil =>
    simp only [List.map_nil, List.flatten_nil, List.nil_append, lines, split_of_no_sep _ _ hl]
    cases last <;> simp
  | cons l ls ih =>
    obtain ⟨line, text⟩ := l
    have h1 := h (line, text) (by simp)
    have ih := ih fun l hl => h l (by simp [hl])
    obtain ⟨h1, h2⟩ := h1
    dsimp only at h1 h2
    cases h1 with
    | lf he =>
      simp only [List.map_cons, List.flatten_cons, List.append_assoc, List.cons_append, List.nil_append]
      rw [lines_cons _ _ h2, ih, dropCr, if_neg he]
    | crlf =>
      simp only [List.map_cons, List.flatten_cons, List.append_assoc, List.cons_append, List.nil_append]
      have e : ∀ r : Str, line ++ '\r' :: '\n' :: r = (line ++ ['\r']) ++ '\n' :: r := by simp
      rw [e, lines_cons _ _ (by simp [h2]), ih]
      simp [dropCr]

/-- What a line says: a key and a value, with or without quotes; or nothing, if there is no `=` in it. -/
inductive LineSays : Str → Option (Str × Str) → Prop where
  | attr (k v line : Str) : Attr k v line → '=' ∉ k → LineSays line (some (k, v))
  | none (line : Str) : '=' ∉ line → LineSays line .none

theorem line_says {line : Str} {o : Option (Str × Str)} (h : LineSays line o) :
    (o = none ∧ splitOnce '=' line = (line, none)) ∨
    ∃ k v v', o = some (k, v) ∧ splitOnce '=' line = (k, some v') ∧ trimMatches '"' v' = v := by
  cases h with
  | none _ hn => exact .inl ⟨rfl, splitOnce_none _ _ hn⟩
  | attr k v _ ha hk =>
    cases ha with
    | plain h1 h2 => exact .inr ⟨k, v, _, rfl, splitOnce_some _ _ _ hk, trimQuotes v v h1 h2 (.inl rfl)⟩
    | quoted h1 h2 => exact .inr ⟨k, v, _, rfl, splitOnce_some _ _ _ hk, trimQuotes _ v h1 h2 (.inr rfl)⟩

/-- **C103.** A file of attributes is read line by line, whichever way its lines are ended and whether or not its last line is
ended; lines without an `=` are passed over.  (A line feed inside a value ends it.) -/
theorem C103_attribute_files (ls : List (Str × Str)) (last : Str) (says : List (Option (Str × Str))) (lastSays : Option (Str × Str))
    (hl : '\n' ∉ last) (h : ∀ l ∈ ls, Ended l.1 l.2 ∧ '\n' ∉ l.1) (hlen : says.length = ls.length)
    (hs : ∀ e ∈ ls.zip says, LineSays e.1.1 e.2) (hls : LineSays last lastSays) :
    parseAttrs ((ls.map (·.2)).flatten ++ last) = (says ++ [lastSays]).filterMap id := by
  unfold parseAttrs
  rw [lines_ended ls last hl h, List.filterMap_append, List.filterMap_append]
  congr 1
  · clear h
    induction ls generalizing says with
    | nil => cases says with
      | nil => rfl
      | cons _ _ => simp at hlen
    | cons l ls ih =>
      cases says with
      | nil => simp at hlen
      | cons o says =>
        have := ih says (by simpa using hlen) fun e he => hs e (by simp [he])
        have h1 := line_says (hs (l, o) (by simp))
        dsimp only at h1
        rcases h1 with ⟨rfl, e⟩ | ⟨k, v, v', rfl, e, e'⟩
        · simp only [List.map_cons, List.filterMap_cons, this, e, id]
        · simp only [List.map_cons, List.filterMap_cons, this, e, e', id]
  · by_cases he : last = []
    · subst he
      rw [if_pos rfl]
      generalize hz : ([] : Str) = z at hls
      cases hls with
      | none => rfl
      | attr k v _ ha _ => cases ha <;> simp at hz
    · rw [if_neg he]
      rcases line_says hls with ⟨rfl, e⟩ | ⟨k, v, v', rfl, e, e'⟩
      · simp only [List.filterMap_cons, e, List.filterMap_nil, id]
      · simp only [List.filterMap_cons, e, e', List.filterMap_nil, id]

example : parseAttrs ("a=b\r\nc=\"d\"\nno attribute\n".toList ++ "e=f".toList) =
    [("a".toList, "b".toList), ("c".toList, "d".toList), ("e".toList, "f".toList)] := by decide +kernel

/-- **C103.** The authorities are among the labels of inbound metrics only if that is asked for with `unsafe`, in any case of its
letters; nothing is the same as not asked for; anything else is refused. -/
theorem C103_authority_labels (s : Str) :
    (parseAuthorityLabels s = .ok true ↔ s.map lower = "unsafe".toList) ∧
    (parseAuthorityLabels s = .ok false ↔ s = []) := by
  unfold parseAuthorityLabels
  cases s with
  | nil => simp
  | cons c s =>
    simp only [List.isEmpty_cons, Bool.false_eq_true, if_false, eqIgnoreCase, beq_iff_eq]
    have hu : "unsafe".toList.map lower = "unsafe".toList := by decide
    rw [hu]
    generalize "unsafe".toList = u
    split <;> rename_i h <;> simp only [h, reduceCtorEq, iff_true, Except.ok.injEq, Bool.true_eq_false, and_self]

example : parseAuthorityLabels "UnSafe".toList = .ok true ∧ parseAuthorityLabels "true".toList = .error .notAnAuthorityLabelsSetting := by
  constructor <;> decide +kernel

end Verif.Env
