/-!
# Header maps

A model of the parts of `http::HeaderMap` and `http::HeaderValue` (crate `http`, not in `/repo`) that the
code uses: a multi-map from names to values, in order of insertion.  Names are lower-case strings.  A
value is a list of bytes, written as characters below 256.
-/

namespace Verif

abbrev HeaderMap := List (String × List Char)

namespace HeaderMap

/-- `HeaderMap::get`: the first value. -/
def get (h : HeaderMap) (name : String) : Option (List Char) :=
  match h with
  | [] => none
  | (k, v) :: h => if k = name then some v else get h name

/-- `HeaderMap::get_all`. -/
def getAll (h : HeaderMap) (name : String) : List (List Char) :=
  (h.filter (fun e => e.1 = name)).map (·.2)

/-- `HeaderMap::remove`: all values go. -/
def remove (h : HeaderMap) (name : String) : HeaderMap := h.filter (fun e => ¬ e.1 = name)

/-- `HeaderMap::insert`: replaces all values. -/
def insert (h : HeaderMap) (name : String) (v : List Char) : HeaderMap := remove h name ++ [(name, v)]

/-- `HeaderMap::append`. -/
def append (h : HeaderMap) (name : String) (v : List Char) : HeaderMap := h ++ [(name, v)]

theorem get_eq_head (h : HeaderMap) (n : String) : get h n = (getAll h n).head? := by
  induction h with
  | nil => rfl
  | cons e h ih =>
    obtain ⟨k, v⟩ := e
    simp only [get, getAll, List.filter_cons]
    by_cases hk : k = n
    · simp [hk]
    · simp only [hk, if_false, decide_false, Bool.false_eq_true]
      exact ih

theorem getAll_append_list (h g : HeaderMap) (n : String) : getAll (h ++ g) n = getAll h n ++ getAll g n := by
  simp [getAll]

theorem getAll_remove (h : HeaderMap) (n m : String) :
    getAll (remove h n) m = if m = n then [] else getAll h m := by
  unfold getAll remove
  rw [List.filter_filter]
  by_cases hm : m = n
  · subst hm
    rw [if_pos rfl, List.map_eq_nil_iff, List.filter_eq_nil_iff]
    intro e _; simp
  · rw [if_neg hm]
    congr 1
    apply List.filter_congr
    intro e _
    by_cases he : e.1 = m
    · simp [he, hm]
    · simp [he]

theorem getAll_insert (h : HeaderMap) (n m : String) (v : List Char) :
    getAll (insert h n v) m = if m = n then [v] else getAll h m := by
  unfold insert
  rw [getAll_append_list, getAll_remove]
  by_cases hm : m = n
  · subst hm; simp [getAll]
  · have hn : ¬ n = m := fun h => hm h.symm
    simp [hm, hn, getAll]

theorem getAll_append (h : HeaderMap) (n m : String) (v : List Char) :
    getAll (append h n v) m = if m = n then getAll h m ++ [v] else getAll h m := by
  unfold append
  rw [getAll_append_list]
  by_cases hm : m = n
  · subst hm; simp [getAll]
  · have hn : ¬ n = m := fun h => hm h.symm
    simp [hm, hn, getAll]

theorem get_insert (h : HeaderMap) (n m : String) (v : List Char) :
    get (insert h n v) m = if m = n then some v else get h m := by
  rw [get_eq_head, getAll_insert, get_eq_head]; split <;> rfl

theorem get_remove (h : HeaderMap) (n m : String) :
    get (remove h n) m = if m = n then none else get h m := by
  rw [get_eq_head, getAll_remove, get_eq_head]; split <;> rfl

end HeaderMap

/-- A byte that `HeaderValue::to_str` accepts. -/
def visible (c : Char) : Bool := (32 ≤ c.toNat && c.toNat < 127) || c == '\t'

/-- `HeaderValue::to_str(..).ok()`. -/
def toStr (v : List Char) : Option (List Char) := if v.all visible then some v else none

end Verif
