import Verif.Metrics.Reader
/-!
# The reader reads what is written
-/
namespace Verif.Metrics
open Verif.Text (decimal join)

/-- Labels as text. -/
def labelText (l : Labels) : Str := join ',' (l.map fun p => pair p.1 p.2)

theorem labelText_append {a b : Labels} (ha : a ≠ []) (hb : b ≠ []) :
    labelText (a ++ b) = labelText a ++ ',' :: labelText b := by
  unfold labelText
  induction a with
  | nil => exact absurd rfl ha
  | cons p a ih =>
    cases a with
    | nil =>
      cases b with
      | nil => exact absurd rfl hb
      | cons q b => simp [join]
    | cons p' a =>
      have := ih (by simp)
      simp only [List.map_cons, List.cons_append, List.map_append] at this ⊢
      simp [join, this]

theorem labelText_one (k v : Str) : labelText [(k, v)] = pair k v := rfl

theorem labelText_two (k v k' v' : Str) : labelText [(k, v), (k', v')] = pair k v ++ ',' :: pair k' v' := rfl

theorem labelText_three (k v k' v' k'' v'' : Str) :
    labelText [(k, v), (k', v'), (k'', v'')] = pair k v ++ ',' :: pair k' v' ++ ',' :: pair k'' v'' := by
  simp [labelText, join]

theorem labelText_four (k v k' v' k'' v'' l w : Str) :
    labelText [(k, v), (k', v'), (k'', v''), (l, w)]
      = pair k v ++ ',' :: pair k' v' ++ ',' :: pair k'' v'' ++ ',' :: pair l w := by
  simp [labelText, join]

/-! ## Reading values, labels, lines -/

theorem readValue_plain (v r : Str) (h : plain v = true) : readValue (v ++ '"' :: r) = some (v, r) := by
  induction v with
  | nil => simp [readValue]
  | cons c v ih =>
    simp only [plain, List.all_cons, Bool.and_eq_true, bne_iff_ne, ne_eq] at h
    obtain ⟨⟨⟨h1, h2⟩, h3⟩, h4⟩ := h
    have ih := ih (by unfold plain; exact h4)
    rw [List.cons_append, readValue.eq_8 _ _ h1 h3 (fun _ e => absurd e h2) (fun _ e => absurd e h2) (fun _ e => absurd e h2)
      (fun e => absurd e h2), ih]
    rfl

theorem nameChar_of_start {c : Char} (h : nameStart c = true) : nameChar c = true := by
  simp only [nameStart, nameChar, Bool.or_eq_true, Char.isAlphanum] at *
  rcases h with h | h
  · exact Or.inl (Or.inl h)
  · exact Or.inr h

theorem nameOk_all {k : Str} (h : nameOk k = true) : k.all nameChar = true := by
  cases k with
  | nil => rfl
  | cons c s =>
    simp only [nameOk, Bool.and_eq_true] at h
    simp [nameChar_of_start h.1, h.2]

theorem takeWhile_name {k : Str} (h : k.all nameChar = true) (c : Char) (hc : nameChar c = false) (r : Str) :
    (k ++ c :: r).takeWhile nameChar = k := by
  induction k with
  | nil => simp [hc]
  | cons d k ih =>
    simp only [List.all_cons, Bool.and_eq_true] at h
    simp [h.1, ih h.2]

theorem dropWhile_name {k : Str} (h : k.all nameChar = true) (c : Char) (hc : nameChar c = false) (r : Str) :
    (k ++ c :: r).dropWhile nameChar = c :: r := by
  induction k with
  | nil => simp [hc]
  | cons d k ih =>
    simp only [List.all_cons, Bool.and_eq_true] at h
    simp [h.1, ih h.2]

theorem readPair_pair {k v : Str} (hk : nameOk k = true) (hv : plain v = true) (r : Str) :
    readPair (pair k v ++ r) = some ((k, v), r) := by
  have e : pair k v ++ r = k ++ '=' :: ('"' :: (v ++ '"' :: r)) := by simp [pair]
  unfold readPair
  rw [e, takeWhile_name (nameOk_all hk) '=' (by decide), dropWhile_name (nameOk_all hk) '=' (by decide)]
  simp only [hk, if_true, readValue_plain v r hv, Option.map_some]

theorem readLabels_text (l : Labels) (h : Writable l) (fuel : Nat) (hf : l.length ≤ fuel) (r : Str) :
    readLabels fuel (labelText l ++ '}' :: r) = some (l, r) := by
  induction l generalizing fuel with
  | nil => exact absurd rfl h.1
  | cons p l ih =>
    cases fuel with
    | zero => simp at hf
    | succ fuel =>
      obtain ⟨k, v⟩ := p
      have hp := h.2 (k, v) (by simp)
      cases l with
      | nil =>
        simp only [readLabels, labelText_one, readPair_pair hp.1 hp.2]
      | cons q l =>
        have e : labelText ((k, v) :: q :: l) ++ '}' :: r = pair k v ++ ',' :: (labelText (q :: l) ++ '}' :: r) := by
          rw [show (k, v) :: q :: l = [(k, v)] ++ q :: l from rfl, labelText_append (by simp) (by simp)]
          simp [labelText_one]
        have := ih ⟨by simp, fun p hp => h.2 p (List.mem_cons_of_mem _ hp)⟩ fuel (by simpa using hf)
        simp only [readLabels, e, readPair_pair hp.1 hp.2, this, Option.map_some]

theorem length_le_text (l : Labels) : l.length ≤ (labelText l).length := by
  induction l with
  | nil => simp
  | cons p l ih =>
    cases l with
    | nil => obtain ⟨k, v⟩ := p; simp [labelText_one, pair]; omega
    | cons q l =>
      rw [show p :: q :: l = [p] ++ q :: l from rfl, labelText_append (by simp) (by simp)]
      simp only [List.length_append, List.length_cons, List.length_nil] at *
      omega

theorem readSample_labeled (name : Str) (hn : nameOk name = true) (l : Labels) (hl : Writable l) (n : Nat) :
    readSample (name ++ '{' :: labelText l ++ '}' :: ' ' :: decimal n) = some ⟨name, l, n⟩ := by
  have e : name ++ '{' :: labelText l ++ '}' :: ' ' :: decimal n
      = name ++ '{' :: (labelText l ++ '}' :: ' ' :: decimal n) := by simp
  unfold readSample
  rw [e, takeWhile_name (nameOk_all hn) '{' (by decide), dropWhile_name (nameOk_all hn) '{' (by decide)]
  simp only [hn, if_true]
  rw [readLabels_text l hl _ (by have := length_le_text l; simp; omega)]
  simp only [Text.digits_decimal, Option.map_some]

theorem nameOk_ne_hash {s : Str} (h : nameOk s = true) (r : Str) (c : Char) : ∃ d t, s ++ c :: r = d :: t ∧ d ≠ '#' := by
  cases s with
  | nil => cases h
  | cons d s =>
    refine ⟨d, s ++ c :: r, rfl, ?_⟩
    rintro rfl
    simp only [nameOk, Bool.and_eq_true] at h
    exact absurd h.1 (by decide)

theorem readLine_sample {s : Str} (d : Char) (t : Str) (e : s = d :: t) (hd : d ≠ '#') :
    readLine s = (readSample s).map fun x => [x] := by
  subst e
  exact readLine.eq_3 _ (by simp) (fun _ h => hd (by simpa using (List.cons.inj h).1))

theorem readLine_labeled (name : Str) (hn : nameOk name = true) (l : Labels) (hl : Writable l) (n : Nat) :
    readLine (name ++ '{' :: labelText l ++ '}' :: ' ' :: decimal n) = some [⟨name, l, n⟩] := by
  have e : name ++ '{' :: labelText l ++ '}' :: ' ' :: decimal n
      = name ++ '{' :: (labelText l ++ '}' :: ' ' :: decimal n) := by simp
  obtain ⟨d, t, h, hd⟩ := nameOk_ne_hash hn (labelText l ++ '}' :: ' ' :: decimal n) '{'
  rw [readLine_sample d t (e.trans h) hd, readSample_labeled name hn l hl]
  rfl

/-- Reading a line and then the rest. -/
theorem readDoc_line (line rest : Str) (h : '\n' ∉ line) (a b : List Sample) (ha : readLine line = some a)
    (hb : readDoc rest = some b) : readDoc (line ++ '\n' :: rest) = some (a ++ b) := by
  unfold readDoc at *
  rw [Text.split_append_sep, Text.split_of_no_sep _ _ h]
  simp only [List.singleton_append, readLines, ha, hb] 

theorem readDoc_nil : readDoc [] = some [] := by simp [readDoc, Text.split, readLines, readLine]

/-- A text that reads as some samples, whatever follows. -/
def Reads (s : Str) (a : List Sample) : Prop := ∀ rest b, readDoc rest = some b → readDoc (s ++ rest) = some (a ++ b)

theorem Reads.nil : Reads [] [] := fun _ _ h => h

theorem Reads.append {s t : Str} {a b : List Sample} (hs : Reads s a) (ht : Reads t b) : Reads (s ++ t) (a ++ b) := by
  intro rest c hc
  rw [List.append_assoc, List.append_assoc]
  exact hs _ _ (ht _ _ hc)

theorem Reads.doc {s : Str} {a : List Sample} (h : Reads s a) : readDoc s = some a := by
  have := h [] [] readDoc_nil
  simpa using this

theorem Reads.line {line : Str} {a : List Sample} (h : '\n' ∉ line) (ha : readLine line = some a) :
    Reads (line ++ ['\n']) a := by
  intro rest b hb
  rw [List.append_assoc]
  exact readDoc_line line rest h a b ha hb

theorem Reads.flatMap {α : Type} (l : List α) (f : α → Str) (g : α → List Sample) (h : ∀ x ∈ l, Reads (f x) (g x)) :
    Reads (l.flatMap f) (l.flatMap g) := by
  induction l with
  | nil => exact Reads.nil
  | cons x l ih =>
    simp only [List.flatMap_cons]
    exact (h x (by simp)).append (ih fun y hy => h y (List.mem_cons_of_mem _ hy))

/-! ## No line breaks -/

theorem newline_not_name {k : Str} (h : nameOk k = true) : '\n' ∉ k := by
  intro hm
  have := List.all_eq_true.1 (nameOk_all h) _ hm
  exact absurd this (by decide)

theorem newline_not_plain {v : Str} (h : plain v = true) : '\n' ∉ v := by
  intro hm
  have := List.all_eq_true.1 h _ hm
  exact absurd this (by decide)

theorem newline_not_decimal (n : Nat) : '\n' ∉ decimal n := Text.not_digit_of _ (by decide) n

theorem newline_not_text {l : Labels} (h : ∀ p ∈ l, nameOk p.1 = true ∧ plain p.2 = true) : '\n' ∉ labelText l := by
  induction l with
  | nil => simp [labelText, join]
  | cons p l ih =>
    have hp := h p (by simp)
    have h1 : '\n' ∉ pair p.1 p.2 := by
      simp only [pair, List.mem_append, List.mem_cons, not_or]
      exact ⟨⟨newline_not_name hp.1, by decide, by decide, newline_not_plain hp.2⟩, by decide, by simp⟩
    cases l with
    | nil => exact h1
    | cons q l =>
      rw [show p :: q :: l = [p] ++ q :: l from rfl, labelText_append (by simp) (by simp)]
      simp only [List.mem_append, List.mem_cons, not_or]
      exact ⟨h1, by decide, ih fun r hr => h r (List.mem_cons_of_mem _ hr)⟩

theorem reads_labeled (name : Str) (hn : nameOk name = true) (l : Labels) (hl : Writable l) (n : Nat) :
    Reads (fmtLabeled name (labelText l) n) [⟨name, l, shown n⟩] := by
  refine Reads.line ?_ (readLine_labeled name hn l hl _)
  simp only [List.mem_append, List.mem_cons, not_or]
  exact ⟨⟨newline_not_name hn, by decide, newline_not_text hl.2⟩, by decide, by decide, newline_not_decimal _⟩

/-! ## Histograms -/

theorem plain_decimal (n : Nat) : plain (decimal n) = true := by
  refine List.all_eq_true.2 fun c hc => ?_
  have := Text.decimal_digit n c hc
  have h : ∀ d, Text.digit? d = none → c ≠ d := by
    rintro d hd rfl; rw [hd] at this; cases this
  simp [h '"' (by decide), h '\\' (by decide), h '\n' (by decide)]

theorem Bound.plain (b : Bound) : Metrics.plain b.text = true := by
  cases b with
  | le c => exact plain_decimal c
  | inf => decide +kernel

theorem nameOk_append {k : Str} (h : nameOk k = true) {s : Str} (hs : s.all nameChar = true) : nameOk (k ++ s) = true := by
  cases k with
  | nil => cases h
  | cons c k =>
    simp only [nameOk, List.cons_append, Bool.and_eq_true, List.all_append] at *
    exact ⟨h.1, h.2, hs⟩

theorem Writable.append {a b : Labels} (ha : Writable a) (hb : ∀ p ∈ b, nameOk p.1 = true ∧ plain p.2 = true) :
    Writable (a ++ b) := by
  refine ⟨by simp [ha.1], fun p hp => ?_⟩
  rcases List.mem_append.1 hp with h | h
  · exact ha.2 p h
  · exact hb p h

/-- The samples of buckets, with the running total. -/
def bucketSamples (name : Str) (l : Labels) (total : Nat) : List (Bound × Nat) → List Sample
  | [] => []
  | (b, n) :: rest =>
    ⟨name ++ "_bucket".toList, l ++ [("le".toList, b.text)], shown (add64 total n)⟩
      :: bucketSamples name l (add64 total n) rest

theorem reads_buckets (name : Str) (hn : nameOk name = true) (l : Labels) (hl : Writable l) (bs : List (Bound × Nat))
    (total : Nat) : Reads (fmtBuckets name (labelText l) total bs) (bucketSamples name l total bs) := by
  induction bs generalizing total with
  | nil => exact Reads.nil
  | cons b bs ih =>
    obtain ⟨b, n⟩ := b
    have hw : Writable (l ++ [("le".toList, b.text)]) := hl.append (by
      intro p hp
      rw [List.mem_singleton] at hp; subst hp
      exact ⟨show nameOk "le".toList = true by decide +kernel, b.plain⟩)
    have e : both (labelText l) (pair L.le.name b.text) = labelText (l ++ [("le".toList, b.text)]) := by
      rw [labelText_append hl.1 (by simp)]; rfl
    unfold fmtBuckets bucketSamples
    rw [e]
    exact (reads_labeled _ (nameOk_append hn (by decide +kernel)) _ hw _).append (ih _)

theorem add64_mod (a n : Nat) : add64 (a % 2 ^ 64) n = (a + n) % 2 ^ 64 := by
  unfold add64; omega

theorem totalOf_eq (bs : List (Bound × Nat)) (a : Nat) :
    totalOf (a % 2 ^ 64) bs = (a + (bs.map Prod.snd).sum) % 2 ^ 64 := by
  induction bs generalizing a with
  | nil => simp [totalOf]
  | cons b bs ih => 
    obtain ⟨b, n⟩ := b
    simp only [totalOf, add64_mod, ih, List.map_cons, List.sum_cons]
    congr 1; omega

theorem bucketSamples_eq (name : Str) (l : Labels) (bs : List (Bound × Nat)) (a : Nat) :
    bucketSamples name l (a % 2 ^ 64) bs
      = (List.range bs.length).map (fun i =>
        ⟨name ++ "_bucket".toList, l ++ [("le".toList, (bs[i]?.map fun b => b.1.text).getD [])],
         shown ((a + ((bs.take (i + 1)).map Prod.snd).sum) % 2 ^ 64)⟩) := by
  induction bs generalizing a with
  | nil => rfl
  | cons b bs ih =>
    obtain ⟨b, n⟩ := b
    simp only [bucketSamples, add64_mod, ih, List.length_cons, List.range_succ_eq_map, List.map_cons, List.map_map]
    congr 1
    refine List.map_congr_left fun i _ => ?_
    simp [Nat.add_assoc]

theorem reads_hist (name : Str) (hn : nameOk name = true) (l : Labels) (hl : Writable l) (h : Hist) :
    Reads (fmtHist name (labelText l) h) (h.samples name l) := by
  have e1 := bucketSamples_eq name l h.buckets 0
  have e2 := totalOf_eq h.buckets 0
  simp only [Nat.zero_add, show 0 % 2 ^ 64 = 0 from rfl] at e1 e2
  unfold fmtHist Hist.samples
  rw [← e1, ← e2, List.append_assoc]
  exact (reads_buckets name hn l hl _ 0).append
    ((reads_labeled _ (nameOk_append hn (by decide +kernel)) l hl _).append
      (reads_labeled _ (nameOk_append hn (by decide +kernel)) l hl _))

theorem reads_value (name : Str) (hn : nameOk name = true) (l : Labels) (hl : Writable l) (v : Value) :
    Reads (v.fmt name (labelText l)) (v.samples name l) := by
  cases v with
  | counter n => exact reads_labeled name hn l hl n
  | gauge n => exact reads_labeled name hn l hl n
  | hist h => exact reads_hist name hn l hl h

/-- A comment. -/
theorem reads_comment (s : Str) (h : '\n' ∉ s) : Reads ('#' :: s ++ ['\n']) [] :=
  Reads.line (line := '#' :: s) (by simp [h]) (readLine.eq_2 s)

theorem reads_help (m : Family) (hn : nameOk m.name = true) (hh : '\n' ∉ m.help) : Reads m.fmtHelp [] := by
  have e1 : "# HELP ".toList = '#' :: " HELP ".toList := by decide +kernel
  have e2 : "# TYPE ".toList = '#' :: " TYPE ".toList := by decide +kernel
  have n1 : '\n' ∉ " HELP ".toList := by decide +kernel
  have n2 : '\n' ∉ " TYPE ".toList := by decide +kernel
  have n3 : '\n' ∉ m.kind.text := by cases m.kind <;> decide +kernel
  have e : m.fmtHelp = ('#' :: (" HELP ".toList ++ m.name ++ ' ' :: m.help) ++ ['\n'])
      ++ ('#' :: (" TYPE ".toList ++ m.name ++ ' ' :: m.kind.text) ++ ['\n']) := by
    unfold Family.fmtHelp
    rw [e1, e2]
    generalize " HELP ".toList = a
    generalize " TYPE ".toList = b
    simp only [List.append_assoc, List.cons_append, List.nil_append]
  rw [e]
  refine (reads_comment _ ?_).append (b := []) (reads_comment _ ?_)
  · simp only [List.mem_append, List.mem_cons, not_or]
    exact ⟨⟨n1, newline_not_name hn⟩, by decide, hh⟩
  · simp only [List.mem_append, List.mem_cons, not_or]
    exact ⟨⟨n2, newline_not_name hn⟩, by decide, n3⟩

/-- A family whose rows are the text of labels. -/
theorem reads_family (name help : Str) (kind : Kind) (hn : nameOk name = true) (hh : '\n' ∉ help)
    (rows : List (Labels × Value)) (hr : ∀ r ∈ rows, Writable r.1) :
    Reads (Family.fmt ⟨name, help, kind, rows.map fun r => (labelText r.1, r.2)⟩) (rowsSamples name rows) := by
  unfold Family.fmt
  refine Reads.append (a := []) (reads_help _ hn hh) ?_
  simp only [List.flatMap_map]
  exact Reads.flatMap rows _ _ fun r hr' => reads_value name hn r.1 (hr r hr') r.2

end Verif.Metrics
