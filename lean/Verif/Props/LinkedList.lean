import Verif.Model.LinkedList

/-!
# C02: list operations agree with finite sequences

Specification: `Denotes l xs` says that the list object `l` stands for the finite sequence `xs`;
every operation is stated against the core `List` functions.
-/

namespace Verif.LinkedList
open Verif

variable {α : Type}

/-- The list object stands for this sequence of values. -/
inductive Denotes : LL α → List α → Prop where
  | nil : Denotes .null []
  | cons (a : α) (l : LL α) (xs : List α) : Denotes l xs → Denotes (.node a l) (a :: xs)

/-- Every list object stands for exactly one sequence, and every sequence is denoted by exactly
one list value. -/
theorem denotes_bijective :
    (∀ l : LL α, ∃ xs, Denotes l xs ∧ ∀ ys, Denotes l ys → ys = xs) ∧
    (∀ xs : List α, ∃ l, Denotes l xs ∧ ∀ m, Denotes m xs → m = l) := by
  constructor
  · intro l
    induction l with
    | null => exact ⟨[], .nil, fun ys h => by cases h; rfl⟩
    | node a l ih =>
      obtain ⟨xs, h, u⟩ := ih
      refine ⟨a :: xs, .cons a l xs h, fun ys h' => ?_⟩
      cases h' with | cons _ _ zs hz => rw [u zs hz]
  · intro xs
    induction xs with
    | nil => exact ⟨.null, .nil, fun m h => by cases h; rfl⟩
    | cons a xs ih =>
      obtain ⟨l, h, u⟩ := ih
      refine ⟨.node a l, .cons a l xs h, fun m h' => ?_⟩
      cases h' with | cons _ m' _ hm => rw [u m' hm]

example : ∃ l, Denotes l [3, 1, 2] ∧ ∀ m, Denotes m [3, 1, 2] → m = l :=
  denotes_bijective.2 [3, 1, 2]

theorem list_empty {l : LL α} {xs : List α} (h : Denotes l xs) : empty l = xs.isEmpty := by
  cases h <;> rfl

example : empty (.node 3 (.node 1 .null)) = false ∧ empty (.null : LL Nat) = true :=
  ⟨list_empty (xs := [3, 1]) (.cons _ _ _ (.cons _ _ _ .nil)), list_empty (xs := []) .nil⟩

/-- `head` and `tail` throw `out_of_range` exactly on the empty list. -/
theorem list_head_tail {l : LL α} {xs : List α} (h : Denotes l xs) :
    (xs = [] → head l = .throws .outOfRange ∧ tail l = .throws .outOfRange) ∧
    (∀ a ys, xs = a :: ys → head l = .ok a ∧ ∃ m, tail l = .ok m ∧ Denotes m ys) := by
  cases h with
  | nil => exact ⟨fun _ => ⟨rfl, rfl⟩, fun a ys h => by simp at h⟩
  | cons a l xs h =>
    refine ⟨fun h => by simp at h, fun b ys e => ?_⟩
    injection e with e1 e2; subst e1; subst e2
    exact ⟨rfl, l, rfl, h⟩

example : head (.node 3 (.node 1 .null)) = .ok 3 ∧
    ∃ m, tail (.node 3 (.node 1 .null)) = .ok m ∧ Denotes m [1] :=
  (list_head_tail (xs := [3, 1]) (.cons _ _ _ (.cons _ _ _ .nil))).2 3 [1] rfl

theorem list_prepend {l : LL α} {xs : List α} (h : Denotes l xs) (a : α) :
    Denotes (prepend l a) (a :: xs) := .cons a l xs h

example : Denotes (prepend (.node 3 (.node 1 .null)) 2) [2, 3, 1] :=
  list_prepend (.cons _ _ _ (.cons _ _ _ .nil)) 2

theorem list_append {l : LL α} {xs : List α} (h : Denotes l xs) (a : α) :
    ∀ n, xs.length < n → ∃ m, append n l a = .ok m ∧ Denotes m (xs ++ [a]) := by
  induction h with
  | nil =>
    intro n hn
    obtain ⟨k, rfl⟩ : ∃ k, n = k + 1 := ⟨n - 1, by simp at hn; omega⟩
    exact ⟨_, rfl, .cons a .null [] .nil⟩
  | cons b l xs h ih =>
    intro n hn
    obtain ⟨k, rfl⟩ : ∃ k, n = k + 1 := ⟨n - 1, by simp at hn; omega⟩
    obtain ⟨m, e, d⟩ := ih k (by simp at hn; omega)
    exact ⟨.node b m, by simp [append, empty, tail, head, e, prepend], .cons b m _ d⟩

example : ∃ m, append 3 (.node 3 (.node 1 .null)) 2 = .ok m ∧ Denotes m [3, 1, 2] :=
  list_append (.cons _ _ _ (.cons _ _ _ .nil)) 2 3 (by decide)

theorem list_concat {l : LL α} {xs : List α} (h : Denotes l xs) {m : LL α} {ys : List α}
    (hm : Denotes m ys) :
    ∀ n, xs.length < n → ∃ r, concat n l m = .ok r ∧ Denotes r (xs ++ ys) := by
  induction h with
  | nil =>
    intro n hn
    obtain ⟨k, rfl⟩ : ∃ k, n = k + 1 := ⟨n - 1, by simp at hn; omega⟩
    exact ⟨m, rfl, hm⟩
  | cons b l xs h ih =>
    intro n hn
    obtain ⟨k, rfl⟩ : ∃ k, n = k + 1 := ⟨n - 1, by simp at hn; omega⟩
    obtain ⟨r, e, d⟩ := ih k (by simp at hn; omega)
    exact ⟨.node b r, by simp [concat, empty, tail, head, e], .cons b r _ d⟩

example : ∃ r, concat 3 (.node 3 (.node 1 .null)) (.node 2 (.node 4 .null)) = .ok r ∧
    Denotes r [3, 1, 2, 4] :=
  list_concat (.cons _ _ _ (.cons _ _ _ .nil)) (.cons _ _ _ (.cons _ _ _ .nil)) 3 (by decide)

theorem list_reverse {l : LL α} {xs : List α} (h : Denotes l xs) :
    ∀ n, xs.length < n → ∃ r, reverse n l = .ok r ∧ Denotes r xs.reverse := by
  have key : ∀ (l : LL α) (xs : List α), Denotes l xs → ∀ (B : LL α) (ys : List α), Denotes B ys →
      ∀ n, xs.length < n → ∃ r, reverseLoop n l B = .ok r ∧ Denotes r (xs.reverse ++ ys) := by
    intro l xs h
    induction h with
    | nil =>
      intro B ys hB n hn
      obtain ⟨k, rfl⟩ : ∃ k, n = k + 1 := ⟨n - 1, by simp at hn; omega⟩
      exact ⟨B, rfl, by simpa using hB⟩
    | cons b l xs h ih =>
      intro B ys hB n hn
      obtain ⟨k, rfl⟩ : ∃ k, n = k + 1 := ⟨n - 1, by simp at hn; omega⟩
      obtain ⟨r, e, d⟩ := ih (prepend B b) (b :: ys) (.cons b B ys hB) k (by simp at hn; omega)
      exact ⟨r, by simp [reverseLoop, empty, head, tail, e], by simpa using d⟩
  intro n hn
  obtain ⟨r, e, d⟩ := key l xs h .null [] .nil n hn
  exact ⟨r, e, by simpa using d⟩

example : ∃ r, reverse 4 (.node 3 (.node 1 (.node 2 .null))) = .ok r ∧ Denotes r [2, 1, 3] :=
  list_reverse (xs := [3, 1, 2]) (.cons _ _ _ (.cons _ _ _ (.cons _ _ _ .nil))) 4 (by decide)

theorem list_size {l : LL α} {xs : List α} (h : Denotes l xs) :
    ∀ n, xs.length < n → size n l = .ok xs.length := by
  have key : ∀ (l : LL α) (xs : List α), Denotes l xs → ∀ k n, xs.length < n →
      sizeLoop n l k = .ok (k + xs.length) := by
    intro l xs h
    induction h with
    | nil =>
      intro k n hn
      obtain ⟨j, rfl⟩ : ∃ k, n = k + 1 := ⟨n - 1, by simp at hn; omega⟩
      rfl
    | cons b l xs h ih =>
      intro k n hn
      obtain ⟨j, rfl⟩ : ∃ k, n = k + 1 := ⟨n - 1, by simp at hn; omega⟩
      simp only [sizeLoop, empty, tail, Outcome.bind_ok, Bool.false_eq_true, if_false,
        List.length_cons]
      rw [ih (k + 1) j (by simp at hn; omega)]
      congr 1; omega
  intro n hn
  simpa [size] using key l xs h 0 n hn

example : size 3 (.node 3 (.node 1 .null)) = .ok 2 :=
  list_size (xs := [3, 1]) (.cons _ _ _ (.cons _ _ _ .nil)) 3 (by decide)

/-- Iterating visits the values in order, once each. -/
theorem list_iterate {l : LL α} {xs : List α} (h : Denotes l xs) :
    ∀ n, xs.length < n → toVector n l = .ok xs := by
  induction h with
  | nil =>
    intro n hn
    obtain ⟨k, rfl⟩ : ∃ k, n = k + 1 := ⟨n - 1, by simp at hn; omega⟩
    rfl
  | cons b l xs h ih =>
    intro n hn
    obtain ⟨k, rfl⟩ : ∃ k, n = k + 1 := ⟨n - 1, by simp at hn; omega⟩
    simp [toVector, empty, head, tail, ih k (by simp at hn; omega)]

example : toVector 3 (.node 3 (.node 1 .null)) = .ok [3, 1] :=
  list_iterate (.cons _ _ _ (.cons _ _ _ .nil)) 3 (by decide)

/-- Construction from a range of values. -/
theorem list_from_range (xs : List α) (n : Nat) (hn : xs.length < n) :
    ∃ r, fromRange n xs = .ok r ∧ Denotes r xs := by
  have key : ∀ (xs : List α) (B : LL α) (ys : List α), Denotes B ys →
      Denotes (xs.foldl prepend B) (xs.reverse ++ ys) := by
    intro xs
    induction xs with
    | nil => intro B ys h; simpa using h
    | cons a xs ih =>
      intro B ys h
      have := ih (prepend B a) (a :: ys) (.cons a B ys h)
      simpa using this
  have h := key xs .null [] .nil
  obtain ⟨r, e, d⟩ := list_reverse h n (by simpa using hn)
  exact ⟨r, e, by simpa using d⟩

example : ∃ r, fromRange 4 [3, 1, 2] = .ok r ∧ Denotes r [3, 1, 2] :=
  list_from_range [3, 1, 2] 4 (by decide)

/-- `==` is equality of the sequences. -/
theorem list_eq [DecidableEq α] {l : LL α} {xs : List α} (h : Denotes l xs) :
    ∀ {m : LL α} {ys : List α}, Denotes m ys → ∀ n, xs.length < n →
      eqv n l m = .ok (decide (xs = ys)) := by
  induction h with
  | nil =>
    intro m ys hm n hn
    obtain ⟨k, rfl⟩ : ∃ k, n = k + 1 := ⟨n - 1, by simp at hn; omega⟩
    cases hm <;> simp [eqv, empty]
  | cons b l xs h ih =>
    intro m ys hm n hn
    obtain ⟨k, rfl⟩ : ∃ k, n = k + 1 := ⟨n - 1, by simp at hn; omega⟩
    cases hm with
    | nil => simp [eqv, empty]
    | cons c m ys hm =>
      simp only [eqv, empty, head, tail, Outcome.bind_ok]
      by_cases e : b = c
      · simp [e, ih hm k (by simp at hn; omega)]
      · simp [e]

example : eqv 3 (.node 3 (.node 1 .null)) (.node 3 (.node 2 .null)) = .ok false :=
  list_eq (xs := [3, 1]) (.cons _ _ _ (.cons _ _ _ .nil)) (ys := [3, 2])
    (.cons _ _ _ (.cons _ _ _ .nil)) 3 (by decide)

/-- A time series stored in a checkpoint and read back is the original list. -/
theorem time_series_round_trip {l : LL α} {xs : List α} (h : Denotes l xs) (n : Nat)
    (hn : xs.length < n) :
    writeTimeSeries n l = .ok xs.reverse ∧
    (writeTimeSeries n l).bind (readTimeSeries n) = .ok l := by
  obtain ⟨r, e, d⟩ := list_reverse h n hn
  have hv := list_iterate d n (by simpa using hn)
  obtain ⟨r2, e2, d2⟩ := list_from_range xs.reverse n (by simpa using hn)
  obtain ⟨r3, e3, d3⟩ := list_reverse d2 n (by simpa using hn)
  have : r3 = l := by
    simp only [List.reverse_reverse] at d3
    obtain ⟨l', _, u⟩ := denotes_bijective.2 xs
    rw [u r3 d3, u l h]
  subst this
  simp [writeTimeSeries, e, hv, readTimeSeries, e2, e3]

/-- A three-element list meets the hypotheses of the theorems above. -/
example : Denotes (.node 3 (.node 1 (.node 2 .null))) [3, 1, 2] ∧ [3, 1, 2].length < 4 :=
  ⟨.cons _ _ _ (.cons _ _ _ (.cons _ _ _ .nil)), by decide⟩

example : reverse 4 (LL.node 3 (.node 1 (.node 2 .null))) = .ok (.node 2 (.node 1 (.node 3 .null))) :=
  by decide

end Verif.LinkedList
