import Verif.Lemmas.Path

/-!
# Properties of file names (C39, C70)
-/

namespace Verif.Path
open Verif Verif.Text

/-! ### C39 -/

/-- C39: distinct counts give distinct names, unless the name is too long for the buffer. -/
theorem numbered_distinct {pre ext : Str} {n m : Nat} (hn : n < 2 ^ 31) (hm : m < 2 ^ 31)
    (hl : pre.length + ext.length ≤ 1011) (h : n ≠ m) : numbered pre n ext ≠ numbered pre m ext :=
  fun e => h (numbered_inj hn hm hl e)

example : numbered "chkpt".toList 12 "h5".toList ≠ numbered "chkpt".toList 12345 "h5".toList :=
  numbered_distinct (by decide) (by decide) (by decide) (by decide)

/-- C39 (partial): below ten thousand, the names are sorted by number.  Missing: larger counts, see
`numbered_sorted_violated`. -/
theorem numbered_sorted_partial {pre ext : Str} {n m : Nat} (hm : m < 10000)
    (hl : pre.length + ext.length ≤ 1011) (h : n < m) : numbered pre n ext < numbered pre m ext := by
  rw [numbered_eq (by omega) hl, numbered_eq (by omega) hl]
  have hc : '.' :: (pad 4 (showNat n) ++ '.' :: ext) < '.' :: (pad 4 (showNat m) ++ '.' :: ext) := by
    rw [List.cons_lt_cons_iff]
    refine .inr ⟨rfl, digits_lt ?_ (pad_digits 4 n) (pad_digits 4 m) _ _ ?_⟩
    · rw [pad_length_four hm, pad_length_four (by omega)]
    · rw [digitsVal_pad, digitsVal_pad]; exact h
  induction pre with
  | nil => exact hc
  | cons a pre ih =>
    rw [List.cons_append, List.cons_append, List.cons_lt_cons_iff]
    exact .inr ⟨rfl, ih (by simp only [List.length_cons] at hl; omega)⟩

/-- C39 is violated: for every prefix and extension, the name with the number 10000 sorts before that
with 9999, so that the last name in the order is not the one with the highest number. -/
theorem numbered_sorted_violated {pre ext : Str} (hl : pre.length + ext.length ≤ 1011) :
    numbered pre 10000 ext < numbered pre 9999 ext := by
  rw [numbered_eq (by omega) hl, numbered_eq (by omega) hl]
  have e1 : pad 4 (showNat 10000) = '1' :: "0000".toList := by decide +kernel
  have e2 : pad 4 (showNat 9999) = '9' :: "999".toList := by decide +kernel
  rw [e1, e2]
  clear hl
  induction pre with
  | nil =>
    simp only [List.nil_append, List.cons_append, List.cons_lt_cons_iff]
    exact .inr ⟨trivial, .inl (by decide)⟩
  | cons a pre ih => exact List.cons_lt_cons_iff.2 (.inr ⟨rfl, ih⟩)

example : numbered "chkpt".toList 12 "h5".toList = "chkpt.0012.h5".toList := by decide +kernel
example : numbered "chkpt".toList 12345 "h5".toList = "chkpt.12345.h5".toList := by decide +kernel
example : numbered "chkpt".toList 12 "h5".toList < numbered "chkpt".toList 101 "h5".toList :=
  numbered_sorted_partial (by decide) (by decide) (by decide)

/-! ### C70 -/

/-- C70: joining the parts of a path gives it back. -/
theorem join_split (path : Str) : join (split path) = path := by
  have key : ∀ (n : Nat) (path : Str), path.length ≤ n → ∃ p ps, split path = p :: ps ∧
      p ++ (ps.map ('/' :: ·)).flatten = path := by
    intro n
    induction n with
    | zero =>
      intro path h
      have : path = [] := List.length_eq_zero_iff.1 (by omega)
      subst this
      exact ⟨[], [], split_not_mem (by simp), by simp⟩
    | succ n ih =>
      intro path h
      by_cases hm : '/' ∈ path
      · obtain ⟨a, b, rfl, ha⟩ := cut hm
        obtain ⟨p, ps, h1, h2⟩ := ih b (by simp only [List.length_append, List.length_cons] at h; omega)
        refine ⟨a, p :: ps, by rw [split_append ha, h1], ?_⟩
        rw [← h2]; simp
      · exact ⟨path, [], split_not_mem hm, by simp⟩
  obtain ⟨p, ps, h1, h2⟩ := key _ path le_rfl
  rw [h1, join_cons, h2]

example : join (split "/data//a.b".toList) = "/data//a.b".toList := join_split _

/-- C70: splitting joined parts, none of which has a slash, gives them back. -/
theorem split_join {parts : List Str} (hne : parts ≠ []) (h : ∀ p ∈ parts, '/' ∉ p) :
    split (join parts) = parts := by
  induction parts with
  | nil => exact absurd rfl hne
  | cons p ps ih =>
    have hp := h p List.mem_cons_self
    cases ps with
    | nil => rw [join_cons]; simp only [List.map_nil, List.flatten_nil, List.append_nil]; exact split_not_mem hp
    | cons q qs =>
      have hj : join (p :: q :: qs) = p ++ '/' :: join (q :: qs) := by rw [join_cons, join_cons]; simp
      rw [hj, split_append hp, ih (by simp) fun r hr => h r (List.mem_cons_of_mem _ hr)]

example : split (join ["".toList, "data".toList, "run".toList]) = ["".toList, "data".toList, "run".toList] :=
  split_join (by decide) (by decide)

/-- C70: every part of a path is free of slashes. -/
theorem split_parts (path : Str) : split path ≠ [] ∧ ∀ p ∈ split path, '/' ∉ p := by
  have key : ∀ (n : Nat) (path : Str), path.length ≤ n → split path ≠ [] ∧ ∀ p ∈ split path, '/' ∉ p := by
    intro n
    induction n with
    | zero =>
      intro path h
      have : path = [] := List.length_eq_zero_iff.1 (by omega)
      subst this
      rw [split_not_mem (by simp)]; simp
    | succ n ih =>
      intro path h
      by_cases hm : '/' ∈ path
      · obtain ⟨a, b, rfl, ha⟩ := cut hm
        obtain ⟨h1, h2⟩ := ih b (by simp only [List.length_append, List.length_cons] at h; omega)
        rw [split_append ha]
        refine ⟨by simp, fun p hp => ?_⟩
        rcases List.mem_cons.1 hp with rfl | hp
        · exact ha
        · exact h2 p hp
      · rw [split_not_mem hm]; simp [hm]
  exact key _ path le_rfl

example : ∀ p ∈ split "/data//a.b".toList, '/' ∉ p := (split_parts _).2

/-- C70 (partial): the extension of a path whose final component has a dot, or that has no dot at all.
Missing: paths with a dot only before the final component, see `extension_violated`. -/
theorem extension_partial :
    (∀ dir ext : Str, '.' ∉ ext → extension (dir ++ '.' :: ext) = '.' :: ext) ∧
    (∀ path : Str, '.' ∉ path → extension path = []) := by
  constructor
  · intro dir ext h; simp [extension, fromLast_append h]
  · intro path h; simp [extension, fromLast_none h]

example : extension "data/chkpt.0001.h5".toList = ".h5".toList :=
  extension_partial.1 "data/chkpt.0001".toList "h5".toList (by decide)

/-- C70 is violated by the extension of a path whose only dots are in its directories: it has a slash. -/
theorem extension_violated (dir rest file : Str) (h1 : '.' ∉ rest) (h2 : '.' ∉ file) :
    extension (dir ++ '.' :: rest ++ '/' :: file) = '.' :: rest ++ '/' :: file := by
  have h : '.' ∉ rest ++ '/' :: file := by simp [h1, h2]
  have := fromLast_append (c := '.') (a := dir) h
  simp only [List.append_assoc, List.cons_append] at this ⊢
  simp [extension, this]

/-- C70: the parent of a path is what precedes its last slash; that of a path without slashes is the path
itself. -/
theorem parent_path :
    (∀ dir file : Str, '/' ∉ file → parent (dir ++ '/' :: file) = dir) ∧
    (∀ file : Str, '/' ∉ file → parent file = file) := by
  constructor
  · intro dir file h
    simp [parent, beforeLast, fromLast_append h]
  · intro file h
    simp [parent, beforeLast, fromLast_none h]

example : parent "/data/run/a.h5".toList = "/data/run".toList ∧ parent "a.h5".toList = "a.h5".toList :=
  ⟨parent_path.1 "/data/run".toList "a.h5".toList (by decide), parent_path.2 _ (by decide)⟩

/-- C70: the directories made are the leading parts of the path, from the first to all of them, each
below the working directory. -/
theorem require_dir_prefixes (path : Str) :
    requireDir path = (List.range (split path).length).map fun i =>
      "./".toList ++ join ((split path).take (i + 1)) := by
  rw [requireDir, requireLoop_eq]
  refine List.map_congr_left fun i _ => ?_
  cases hs : split path with
  | nil => exact absurd hs (split_parts path).1
  | cons p ps => rw [List.take_succ_cons, join_cons]; simp

example : (requireDir "/data/run".toList).length = (split "/data/run".toList).length := by
  rw [require_dir_prefixes]; simp

/-- C70: the last directory made is the one named, taken relative to the working directory. -/
theorem require_dir_last_partial (path : Str) : (requireDir path).getLast? = some ("./".toList ++ path) := by
  rw [require_dir_prefixes]
  have h : 0 < (split path).length := List.length_pos_of_ne_nil (split_parts path).1
  obtain ⟨n, hn⟩ := Nat.exists_eq_succ_of_ne_zero h.ne'
  rw [hn, List.range_succ, List.map_append, List.map_singleton, List.getLast?_concat, ← Nat.succ_eq_add_one, ← hn,
    List.take_length, join_split]

example : (requireDir "/data/run".toList).getLast? = some ".//data/run".toList := require_dir_last_partial _

/-- C70 is violated for absolute paths: no directory made has an absolute path, whatever the argument. -/
theorem require_dir_absolute_violated (path : Str) : ∀ d ∈ requireDir path, d.head? = some '.' := by
  intro d hd
  rw [require_dir_prefixes] at hd
  obtain ⟨i, _, rfl⟩ := List.mem_map.1 hd
  rfl

example : split "/data//a.b".toList = ["".toList, "data".toList, "".toList, "a.b".toList] := by decide +kernel
example : join ["".toList, "data".toList] = "/data".toList := by decide +kernel
example : extension "out.d/chkpt".toList = ".d/chkpt".toList := by decide +kernel
example : requireDir "/data/run".toList = ["./".toList, ".//data".toList, ".//data/run".toList] := by
  decide +kernel

end Verif.Path
