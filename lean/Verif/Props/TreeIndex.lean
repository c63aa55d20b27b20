import Verif.Lemmas.Tree

/-!
# C07: tree index navigation

Levels are below 2^64 (`size_t`); wherever the code shifts, the level is at most 30 (beyond that
`1 << level` is undefined behaviour, see `index_shift_bound`).
-/

namespace Verif.Tree
open Verif Verif.Seq

variable {R : Nat} {sh : Nat → Outcome Nat}

/-- `valid()` decides whether the index names a cell of its level. -/
theorem index_valid (hs : Shift sh) (i : Index R) (hl : i.level ≤ 30) :
    ∃ b, i.valid sh = .ok b ∧ (b = true ↔ ∀ a, i.coords a < 2 ^ i.level) := by
  unfold Index.valid
  rw [hs _ hl]
  refine ⟨_, rfl, ?_⟩
  rw [(seq_all_any _).1]; simp

/-- From level 31 on, asking is undefined behaviour. -/
theorem index_shift_bound (i : Index R) (hl : 31 ≤ i.level) : i.valid shl1 = .ub := by
  simp [Index.valid, shl1, show ¬ i.level ≤ 30 by omega]

/-- The children of a valid index are valid, one level deeper, pairwise distinct, have it as their
parent, and are all the valid indexes one level deeper with that parent. -/
theorem index_children (i : Index R) (hv : i.Valid) (hl : i.level < 63) :
    (∀ k, (i.childIndexes k).Valid ∧ (i.childIndexes k).level = i.level + 1 ∧
      (i.childIndexes k).parentIndex = i) ∧
    Function.Injective i.childIndexes ∧
    (∀ j : Index R, j.level = i.level + 1 → j.parentIndex = i → ∃ k, i.childIndexes k = j) := by
  refine ⟨fun k => ?_, ?_, ?_⟩
  · rw [childIndexes_eq hv hl]
    refine ⟨child_valid hv k, rfl, ?_⟩
    unfold Index.parentIndex Index.child
    ext a
    · exact decr_succ (by omega)
    · simp only; cases (k : Nat).testBit a <;> simp <;> omega
  · intro k m h
    rw [childIndexes_eq hv hl, childIndexes_eq hv hl] at h
    apply testBit_inj
    intro a
    have := congrFun (congrArg Index.coords h) a
    simp only [Index.child] at this
    revert this
    cases (k : Nat).testBit a <;> cases (m : Nat).testBit a <;> simp
  · intro j hj hp
    refine ⟨⟨toIntegral (fun a => decide (j.coords a % 2 = 1)), toIntegral_lt _⟩, ?_⟩
    rw [childIndexes_eq hv hl]
    unfold Index.child
    ext a
    · exact hj.symm
    · simp only [toIntegral_testBit]
      have h1 := congrFun (congrArg Index.coords hp) a
      simp only [Index.parentIndex] at h1
      rcases Nat.mod_two_eq_zero_or_one (j.coords a) with h | h <;> simp [h] <;> omega

/-- The parent and the position relative to the parent determine the index. -/
theorem index_parent_relative (i j : Index R) (hi : i.level < 2 ^ 64) (hj : j.level < 2 ^ 64)
    (hp : i.parentIndex = j.parentIndex) (hr : i.relativeToParent = j.relativeToParent) : i = j := by
  ext a
  · have := congrArg Index.level hp
    simp only [Index.parentIndex, decr] at this
    omega
  · have h1 := congrFun (congrArg Index.coords hp) a
    have h2 := congrFun (congrArg Index.coords hr) a
    simp only [Index.parentIndex, Index.relativeToParent] at h1 h2
    omega

/-- The relative position is a valid index of level one. -/
theorem index_relative_valid (i : Index R) : i.relativeToParent.level = 1 ∧ i.relativeToParent.Valid :=
  ⟨rfl, fun a => by simp only [Index.relativeToParent]; exact Nat.mod_lt _ (by norm_num)⟩

theorem nextOn_eq (hs : Shift sh) (i : Index R) (hv : i.Valid) (hl : i.level ≤ 30) (a : Fin R) :
    i.nextOn sh a = .ok ⟨i.level, Seq.set i.coords a ((i.coords a + 1) % 2 ^ i.level)⟩ := by
  unfold Index.nextOn Seq.at?
  have h2 := Nat.two_pow_pos i.level
  have h3 : 2 ^ i.level ≤ 2 ^ 30 := Nat.pow_le_pow_right (by norm_num) hl
  have h4 := hv a
  simp only [a.2, dif_pos, Outcome.bind_ok, hs _ hl, if_neg h2.ne', Fin.eta]
  rw [Nat.mod_eq_of_lt (a := i.coords a + 2 ^ i.level + 1) (by omega)]
  have : i.coords a + 2 ^ i.level + 1 = (i.coords a + 1) + 2 ^ i.level := by omega
  rw [this, Nat.add_mod_right]

theorem prevOn_eq (hs : Shift sh) (i : Index R) (hv : i.Valid) (hl : i.level ≤ 30) (a : Fin R) :
    i.prevOn sh a =
      .ok ⟨i.level, Seq.set i.coords a ((i.coords a + (2 ^ i.level - 1)) % 2 ^ i.level)⟩ := by
  unfold Index.prevOn Seq.at?
  have h2 := Nat.two_pow_pos i.level
  have h3 : 2 ^ i.level ≤ 2 ^ 30 := Nat.pow_le_pow_right (by norm_num) hl
  have h4 := hv a
  simp only [a.2, dif_pos, Outcome.bind_ok, hs _ hl, if_neg h2.ne', Fin.eta]
  rw [Nat.mod_eq_of_lt (a := i.coords a + 2 ^ i.level - 1) (by omega)]
  have : i.coords a + 2 ^ i.level - 1 = i.coords a + (2 ^ i.level - 1) := by omega
  rw [this]

theorem set_valid {i : Index R} (hv : i.Valid) (a : Fin R) (v : Nat) (h : v < 2 ^ i.level) :
    (⟨i.level, Seq.set i.coords a v⟩ : Index R).Valid := by
  intro b
  simp only [Seq.set]
  split
  · exact h
  · exact hv b

/-- A step forward or backward along an axis: succeeds, keeps the level, the validity and the other
coordinates, moves by one cell modulo the number of cells, and each undoes the other. -/
theorem index_step (hs : Shift sh) (i : Index R) (hv : i.Valid) (hl : i.level ≤ 30) (a : Fin R) :
    ∃ n p : Index R, i.nextOn sh a = .ok n ∧ i.prevOn sh a = .ok p ∧
      n.Valid ∧ p.Valid ∧ n.level = i.level ∧ p.level = i.level ∧
      (∀ b, b ≠ a → n.coords b = i.coords b ∧ p.coords b = i.coords b) ∧
      n.coords a = (i.coords a + 1) % 2 ^ i.level ∧
      (p.coords a + 1) % 2 ^ i.level = i.coords a ∧
      n.prevOn sh a = .ok i ∧ p.nextOn sh a = .ok i := by
  have h2 := Nat.two_pow_pos i.level
  have hN := set_valid hv a ((i.coords a + 1) % 2 ^ i.level) (Nat.mod_lt _ h2)
  have hP := set_valid hv a ((i.coords a + (2 ^ i.level - 1)) % 2 ^ i.level) (Nat.mod_lt _ h2)
  have h4 := hv a
  have e1 : ((i.coords a + (2 ^ i.level - 1)) % 2 ^ i.level + 1) % 2 ^ i.level = i.coords a := by
    rw [Nat.mod_add_mod, show i.coords a + (2 ^ i.level - 1) + 1 = i.coords a + 2 ^ i.level by omega,
      Nat.add_mod_right, Nat.mod_eq_of_lt h4]
  have e2 : ((i.coords a + 1) % 2 ^ i.level + (2 ^ i.level - 1)) % 2 ^ i.level = i.coords a := by
    rw [Nat.mod_add_mod, show i.coords a + 1 + (2 ^ i.level - 1) = i.coords a + 2 ^ i.level by omega,
      Nat.add_mod_right, Nat.mod_eq_of_lt h4]
  have hset : ∀ v, Seq.set (Seq.set i.coords (a : Nat) v) a (i.coords a) = i.coords := by
    intro v; funext b
    simp only [Seq.set]
    by_cases hb : (a : Nat) = b
    · rw [if_pos hb]; congr 1; exact Fin.ext hb
    · rw [if_neg hb, if_neg hb]
  refine ⟨_, _, nextOn_eq hs i hv hl a, prevOn_eq hs i hv hl a, hN, hP, rfl, rfl, ?_, ?_, ?_, ?_, ?_⟩
  · intro b hb
    have : ¬ (a : Nat) = b := fun h => hb (Fin.ext h.symm)
    simp [Seq.set, this]
  · simp [Seq.set]
  · simp [Seq.set, e1]
  · rw [prevOn_eq hs _ hN hl a]
    simp only [Seq.set, if_true, e2]
    congr 1; ext b
    · rfl
    · exact congrFun (hset _) b
  · rw [nextOn_eq hs _ hP hl a]
    simp only [Seq.set, if_true, e1]
    congr 1; ext b
    · rfl
    · exact congrFun (hset _) b

/-- `n` steps along an axis. -/
def steps (sh : Nat → Outcome Nat) (a : Nat) : Nat → Index R → Outcome (Index R)
  | 0, i => .ok i
  | n + 1, i => (i.nextOn sh a).bind (steps sh a n)

/-- `2^level` steps along an axis lead back to the start, and no smaller positive number does. -/
theorem index_period (hs : Shift sh) (i : Index R) (hv : i.Valid) (hl : i.level ≤ 30) (a : Fin R) :
    steps sh a (2 ^ i.level) i = .ok i ∧
    ∀ n, 0 < n → n < 2 ^ i.level → steps sh a n i ≠ .ok i := by
  have h2 := Nat.two_pow_pos i.level
  have key : ∀ n (j : Index R), j.Valid → j.level = i.level →
      steps sh a n j = .ok ⟨j.level, Seq.set j.coords a ((j.coords a + n) % 2 ^ j.level)⟩ := by
    intro n
    induction n with
    | zero =>
      intro j hj hjl
      simp only [steps]
      congr 1; ext b
      · rfl
      · simp only [Seq.set, Nat.add_zero, Nat.mod_eq_of_lt (hj a)]
        split
        · rename_i h; congr 1; exact Fin.ext h.symm
        · rfl
    | succ n ih =>
      intro j hj hjl
      rw [steps, nextOn_eq hs j hj (by omega) a]
      simp only [Outcome.bind_ok]
      rw [ih _ (set_valid hj a _ (Nat.mod_lt _ (Nat.two_pow_pos _))) hjl]
      congr 1; ext b
      · rfl
      · simp only [Seq.set, if_true, Nat.mod_add_mod]
        split
        · congr 1; omega
        · rfl
  have h4 := hv a
  constructor
  · rw [key _ i hv rfl]
    congr 1; ext b
    · rfl
    · simp only [Seq.set, Nat.add_mod_right, Nat.mod_eq_of_lt h4]
      split
      · rename_i h; congr 1; exact Fin.ext h
      · rfl
  · intro n h0 hn
    rw [key _ i hv rfl]
    intro h
    have := congrFun (congrArg Index.coords (Outcome.ok.inj h)) a
    simp only [Seq.set, if_true] at this
    by_cases hlt : i.coords a + n < 2 ^ i.level
    · rw [Nat.mod_eq_of_lt hlt] at this; omega
    · rw [Nat.mod_eq_sub_mod (by omega), Nat.mod_eq_of_lt (by omega)] at this; omega

/-- Naming an axis that does not exist throws. -/
theorem index_step_bad_axis (i : Index R) (a : Nat) (h : R ≤ a) :
    i.nextOn sh a = .throws .outOfRange ∧ i.prevOn sh a = .throws .outOfRange := by
  simp [Index.nextOn, Index.prevOn, Seq.at?, Nat.not_lt.2 h]

/-- `==` is equality and `!=` its negation. -/
theorem index_eq (i j : Index R) : (i.eq j = true ↔ i = j) ∧ (i.ne j = true ↔ i ≠ j) := by
  have h1 : i.eq j = true ↔ i = j := by
    unfold Index.eq
    rw [Bool.and_eq_true, (seq_all_any _).1]
    simp only [decide_eq_true_eq]
    constructor
    · rintro ⟨h, h'⟩; exact Index.ext h (funext h')
    · rintro rfl; simp
  refine ⟨h1, ?_⟩
  rw [Ne, ← h1]
  unfold Index.eq Index.ne
  rw [Bool.or_eq_true, Bool.and_eq_true, (seq_all_any _).1, (seq_all_any _).2]
  simp only [decide_eq_true_eq]
  rw [not_and_or]; push Not; rfl

/-- The bit sequences of child numbers are in bijection with the numbers below `2^R`. -/
theorem bits_bijection :
    (∀ b : Seq R Bool, toIntegral b < 2 ^ R ∧ binaryRepr R (toIntegral b) = b) ∧
    (∀ k, k < 2 ^ R → toIntegral (binaryRepr R k) = k) := by
  refine ⟨fun b => ⟨toIntegral_lt b, funext fun a => ?_⟩, fun k hk => ?_⟩
  · rw [binaryRepr_eq, toIntegral_testBit]
  · have := toIntegral_repr ⟨k, hk⟩
    simpa only [← binaryRepr_eq] using this

/-- A cell at level 3 of a two dimensional tree, on the upper boundary of axis 0. -/
def exIndex : Index 2 := ⟨3, ![7, 2]⟩

example : exIndex.Valid := by unfold Index.Valid exIndex; decide
example : exIndex.nextOn shl1 0 = .ok ⟨3, ![0, 2]⟩ := by decide
example : exIndex.prevOn shl1 1 = .ok ⟨3, ![7, 1]⟩ := by decide
example : exIndex.childIndexes 2 = ⟨4, ![14, 5]⟩ := by decide
example : exIndex.parentIndex = ⟨2, ![3, 1]⟩ ∧ exIndex.relativeToParent = ⟨1, ![1, 0]⟩ := by decide
example : exIndex.orthant shl1 = .ok ![true, false] := by decide
example : Shift shl1 := shl1_shift

/-- `index_valid`: the code's check agrees. -/
example : ∃ b, exIndex.valid shl1 = .ok b ∧ (b = true ↔ ∀ a, exIndex.coords a < 2 ^ exIndex.level) :=
  index_valid shl1_shift exIndex (by decide)

/-- `index_children`: the four children of a cell. -/
example : (∀ k, (exIndex.childIndexes k).Valid ∧ (exIndex.childIndexes k).level = 4 ∧
      (exIndex.childIndexes k).parentIndex = exIndex) ∧ Function.Injective exIndex.childIndexes :=
  ⟨(index_children exIndex (by unfold Index.Valid exIndex; decide) (by decide)).1,
    (index_children exIndex (by unfold Index.Valid exIndex; decide) (by decide)).2.1⟩

/-- `index_eq`: cells of different levels are different. -/
example : exIndex.ne ⟨4, ![7, 2]⟩ = true := (index_eq exIndex ⟨4, ![7, 2]⟩).2.2 (by decide)

/-- `index_parent_relative`: parent and position in the parent determine the cell. -/
example (j : Index 2) (hj : j.level < 2 ^ 64) (hp : ⟨2, ![3, 1]⟩ = j.parentIndex)
    (hr : ⟨1, ![1, 0]⟩ = j.relativeToParent) : exIndex = j :=
  index_parent_relative exIndex j (by decide) hj (by rw [← hp]; decide) (by rw [← hr]; decide)

/-- `index_period`: eight steps, and no fewer, return to the same cell of level three. -/
example : steps shl1 (0 : Fin 2) (2 ^ exIndex.level) exIndex = .ok exIndex ∧
    ∀ n, 0 < n → n < 2 ^ exIndex.level → steps shl1 (0 : Fin 2) n exIndex ≠ .ok exIndex :=
  index_period shl1_shift exIndex (by unfold Index.Valid exIndex; decide) (by decide) 0

/-- `index_relative_valid`. -/
example : exIndex.relativeToParent.level = 1 ∧ exIndex.relativeToParent.Valid :=
  index_relative_valid exIndex

/-- `index_shift_bound`: the shift of the check is undefined at level 31. -/
example : (⟨31, ![7, 2]⟩ : Index 2).valid shl1 = .ub := index_shift_bound _ (by decide)

/-- `index_step`: a step and the step back. -/
example : ∃ n : Index 2, exIndex.nextOn shl1 ((0 : Fin 2) : Nat) = .ok n ∧ n.prevOn shl1 ((0 : Fin 2) : Nat) = .ok exIndex := by
  obtain ⟨n, p, h1, _, _, _, _, _, _, _, _, h2, _⟩ :=
    index_step shl1_shift exIndex (by unfold Index.Valid exIndex; decide) (by decide) 0
  exact ⟨n, h1, h2⟩

/-- `index_step_bad_axis`: there is no axis 2 in a quadtree. -/
example : exIndex.nextOn shl1 2 = .throws .outOfRange ∧ exIndex.prevOn shl1 2 = .throws .outOfRange :=
  index_step_bad_axis exIndex 2 (by decide)

end Verif.Tree
