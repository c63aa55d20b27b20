import Verif.Model.Mpi
import Mathlib.Tactic.Ring
import Mathlib.Data.List.Basic
import Mathlib.Algebra.BigOperators.Group.List.Basic

/-!
# Bytes, offsets and counts
-/

namespace Verif.Mpi

theorem mapO_ok {f : α → Outcome β} {g : α → β} {l : List α} (h : ∀ a ∈ l, f a = .ok (g a)) :
    mapO f l = .ok (l.map g) := by
  induction l with
  | nil => rfl
  | cons a l ih =>
    simp only [mapO, h a (by simp), Outcome.bind_ok, ih fun b hb => h b (by simp [hb]), Outcome.map_ok,
      List.map_cons]

theorem mapO_ub {f : α → Outcome β} {g : α → β} {l : List α} (h : ∀ a ∈ l, f a = .ok (g a) ∨ f a = .ub)
    (hu : ∃ a ∈ l, f a = .ub) : mapO f l = .ub := by
  induction l with
  | nil => obtain ⟨a, ha, _⟩ := hu; cases ha
  | cons a l ih =>
    rcases h a (by simp) with h1 | h1
    · simp only [mapO, h1, Outcome.bind_ok]
      rw [ih (fun b hb => h b (by simp [hb]))]
      · rfl
      · obtain ⟨b, hb, hub⟩ := hu
        rcases List.mem_cons.1 hb with rfl | hb
        · rw [h1] at hub; cases hub
        · exact ⟨b, hb, hub⟩
    · simp only [mapO, h1, Outcome.bind_ub]

theorem addr_lax (v : List α) : addr true v = .ok () := by simp [addr]

theorem addr_nonempty (lax : Bool) {v : List α} (h : v ≠ []) : addr lax v = .ok () := by
  cases v with
  | nil => exact absurd rfl h
  | cons _ _ => simp [addr]

theorem bytes_nil (c : Codec α) : c.bytes [] = [] := rfl

theorem bytes_append (c : Codec α) (v w : List α) : c.bytes (v ++ w) = c.bytes v ++ c.bytes w := by
  simp [Codec.bytes]

theorem bytes_length (c : Codec α) (v : List α) : (c.bytes v).length = v.length * c.sz := by
  induction v with
  | nil => simp [Codec.bytes]
  | cons a v ih =>
    have : c.bytes (a :: v) = c.enc a ++ c.bytes v := rfl
    rw [this, List.length_append, c.len, ih, List.length_cons]
    ring

/-- The bytes of element `k`. -/
theorem bytes_slice (c : Codec α) (v : List α) (k : Nat) (h : k < v.length) :
    ((c.bytes v).drop (k * c.sz)).take c.sz = c.enc v[k] := by
  induction v generalizing k with
  | nil => simp at h
  | cons a v ih =>
    have hb : c.bytes (a :: v) = c.enc a ++ c.bytes v := rfl
    cases k with
    | zero =>
      rw [hb, Nat.zero_mul, List.drop_zero, List.take_append_of_le_length (by rw [c.len])]
      rw [List.take_of_length_le (by rw [c.len])]
      rfl
    | succ k =>
      have : (k + 1) * c.sz = (c.enc a).length + k * c.sz := by rw [c.len]; ring
      rw [hb, this, List.drop_append]
      have h0 : List.drop ((c.enc a).length + k * c.sz) (c.enc a) = [] := by simp
      rw [h0, List.nil_append, Nat.add_sub_cancel_left]
      exact ih k (by simpa using h)

/-- Values come out of memory as they went in. -/
theorem read_bytes (c : Codec α) (v : List α) : c.read v.length (c.bytes v) = v := by
  refine List.ext_getElem (by simp [Codec.read]) ?_
  intro k h1 h2
  simp only [Codec.read, List.getElem_map, List.getElem_range]
  rw [bytes_slice c v k h2, c.dec_enc]

theorem toInt_small {n : Nat} (h : n < 2 ^ 31) : toInt n = n := by
  have : ∀ m : Nat, 2 ∣ m → n < m / 2 → Int.bmod n m = n := by
    intro m hm h
    apply Int.bmod_eq_of_le <;> omega
  exact this (2 ^ 32) (by decide) (by omega)

theorem elems_small (c : Codec α) {n : Nat} (h : n * c.sz < 2 ^ 31) : elems c ((n * c.sz : Nat) : Int) = n := by
  unfold elems
  have h1 : (((n * c.sz : Nat) : Int) % 2 ^ 64) = ((n * c.sz : Nat) : Int) := by
    generalize n * c.sz = m at h
    omega
  rw [h1, Int.toNat_natCast, Nat.mul_div_cancel _ c.pos]

/-- Offsets of consecutive pieces. -/
def offs (a : Nat) : List Nat → List Nat
  | [] => []
  | x :: xs => a :: offs (a + x) xs

theorem offs_length (a : Nat) (l : List Nat) : (offs a l).length = l.length := by
  induction l generalizing a with
  | nil => rfl
  | cons x xs ih => simp [offs, ih]

theorem iadd_small {a b : Nat} (h : a + b < 2 ^ 31) : iadd a b = .ok ((a + b : Nat) : Int) := by
  have h2 : -(2 ^ 31) ≤ (a : Int) + b ∧ (a : Int) + b < 2 ^ 31 := by omega
  simp only [iadd, if_pos h2]
  congr 1

/-- The displacements that the code of scatter computes. -/
theorem partialSum_dropLast (a x : Nat) (xs : List Nat) (h : a + (x :: xs).sum < 2 ^ 31) :
    ∃ ps, partialSum a ((x :: xs).map (Nat.cast : Nat → Int)).dropLast = .ok ps ∧
      (a : Int) :: ps = (offs a (x :: xs)).map (Nat.cast : Nat → Int) := by
  induction xs generalizing a x with
  | nil => exact ⟨[], rfl, rfl⟩
  | cons y ys ih =>
    simp only [List.sum_cons] at h ih
    obtain ⟨ps, h1, h2⟩ := ih (a + x) y (by omega)
    refine ⟨((a + x : Nat) : Int) :: ps, ?_, ?_⟩
    · simp only [List.map_cons, List.dropLast_cons₂, partialSum] at h1 ⊢
      rw [iadd_small (by omega), Outcome.bind_ok, h1]
      rfl
    · rw [h2]; rfl

/-- The displacements that the code of all_gather computes. -/
theorem partialSum_all (a : Nat) (l : List Nat) (h : a + l.sum < 2 ^ 31) :
    ∃ ps, partialSum a (l.map (Nat.cast : Nat → Int)) = .ok ps ∧
      (a : Int) :: ps = ((offs a l) ++ [a + l.sum]).map (Nat.cast : Nat → Int) := by
  induction l generalizing a with
  | nil => exact ⟨[], rfl, rfl⟩
  | cons x xs ih =>
    simp only [List.sum_cons] at h ih ⊢
    obtain ⟨ps, h1, h2⟩ := ih (a + x) (by omega)
    refine ⟨((a + x : Nat) : Int) :: ps, ?_, ?_⟩
    · simp only [List.map_cons, partialSum]
      rw [iadd_small (by omega), Outcome.bind_ok, h1]
      rfl
    · rw [h2, ← Nat.add_assoc]; rfl

theorem partialSum_ub (a : Nat) (l : List Nat) (ha : a < 2 ^ 31) (h : 2 ^ 31 ≤ a + l.sum) :
    partialSum a (l.map (Nat.cast : Nat → Int)) = .ub := by
  induction l generalizing a with
  | nil => simp at h; omega
  | cons x xs ih =>
    simp only [List.sum_cons] at h
    simp only [List.map_cons, partialSum]
    by_cases hx : a + x < 2 ^ 31
    · rw [iadd_small hx, Outcome.bind_ok, ih (a + x) hx (by omega)]
      rfl
    · have : ¬(-(2 ^ 31) ≤ (a : Int) + x ∧ (a : Int) + x < 2 ^ 31) := by omega
      simp only [iadd, if_neg this, Outcome.bind_ub]

/-- Sizes in bytes. -/
def sizes (c : Codec α) (L : List (List α)) : List Nat := L.map fun v => v.length * c.sz

theorem sizes_sum (c : Codec α) (L : List (List α)) : (sizes c L).sum = L.flatten.length * c.sz := by
  induction L with
  | nil => simp [sizes]
  | cons v L ih =>
    simp only [sizes, List.map_cons, List.sum_cons, List.flatten_cons, List.length_append] at ih ⊢
    rw [ih]; ring

/-- Every piece is where the offsets say. -/
theorem scatterv_pieces (c : Codec α) (pre : List Byte) (L : List (List α)) :
    mpiScatterv (pre ++ c.bytes L.flatten) ((sizes c L).map Nat.cast)
      ((offs pre.length (sizes c L)).map Nat.cast) ((sizes c L).map Nat.cast) = .ok (L.map c.bytes) := by
  unfold mpiScatterv
  induction L generalizing pre with
  | nil => rfl
  | cons v L ih =>
    have h1 := ih (pre ++ c.bytes v)
    rw [List.append_assoc, ← bytes_append, ← List.flatten_cons, List.length_append, bytes_length] at h1
    simp only [sizes, List.map_cons, offs, List.zip_cons_cons, mapO] at h1 ⊢
    have hn : ¬(((v.length * c.sz : Nat) : Int) < 0 ∨ ((pre.length : Nat) : Int) < 0 ∨
      ((v.length * c.sz : Nat) : Int) ≠ ((v.length * c.sz : Nat) : Int)) := by
      generalize v.length * c.sz = m
      omega
    rw [if_neg hn, h1]
    have hs : slice (pre ++ c.bytes (v :: L).flatten) (pre.length : Int).toNat
        ((v.length * c.sz : Nat) : Int).toNat = .ok (c.bytes v) := by
      rw [Int.toNat_natCast, Int.toNat_natCast, slice, if_pos]
      · congr 1
        rw [List.drop_left, List.flatten_cons, bytes_append, List.take_append_of_le_length
          (by rw [bytes_length]), List.take_of_length_le (by rw [bytes_length])]
      · rw [List.length_append, List.flatten_cons, bytes_append, List.length_append, bytes_length]
        omega
    rw [hs]
    rfl

theorem intoVector_bytes (c : Codec α) (v : List α) (h : v.length * c.sz < 2 ^ 31) (lax : Bool)
    (hl : lax = true ∨ v ≠ []) :
    intoVector c lax ((v.length * c.sz : Nat) : Int) (c.bytes v) = .ok v := by
  unfold intoVector
  rw [elems_small c h]
  have : addr lax (List.range v.length) = .ok () := by
    rcases hl with rfl | hl
    · exact addr_lax _
    · refine addr_nonempty _ ?_
      intro e
      rw [List.range_eq_nil] at e
      exact hl (List.length_eq_zero_iff.1 e)
  rw [this, Outcome.bind_ok, if_neg (by rw [bytes_length]; simp), read_bytes]

theorem overwrite_mid (pre w rest : List Byte) (l : Nat) (hl : l = pre.length) (h : w.length ≤ rest.length) :
    overwrite (pre ++ rest) l w = .ok (pre ++ w ++ rest.drop w.length) := by
  subst hl
  rw [overwrite, if_pos (by rw [List.length_append]; omega)]
  congr 1
  rw [List.take_left, List.drop_append]
  simp

theorem allgatherv_pieces (c : Codec α) (L : List (List α)) (pre rest : List Byte) (o : List Int)
    (h : L.flatten.length * c.sz ≤ rest.length) :
    mpiAllgatherv (L.map c.bytes) ((sizes c L).map Nat.cast)
      ((offs pre.length (sizes c L)).map Nat.cast ++ o) (pre ++ rest) =
      .ok (pre ++ c.bytes L.flatten ++ rest.drop (L.flatten.length * c.sz)) := by
  unfold mpiAllgatherv
  induction L generalizing pre rest with
  | nil => simp [sizes, Codec.bytes]
  | cons v L ih =>
    simp only [List.flatten_cons, List.length_append, Nat.add_mul] at h
    have h1 := ih (pre ++ c.bytes v) (rest.drop (v.length * c.sz)) (by rw [List.length_drop]; omega)
    rw [List.length_append, bytes_length] at h1
    simp only [sizes, List.map_cons, offs, List.zip_cons_cons, List.cons_append, List.foldl_cons,
      Outcome.bind_ok] at h1 ⊢
    have hn : ¬(((v.length * c.sz : Nat) : Int) < 0 ∨ ((pre.length : Nat) : Int) < 0 ∨
      ((v.length * c.sz : Nat) : Int) ≠ (((c.bytes v).length : Nat) : Int)) := by
      rw [bytes_length]
      generalize v.length * c.sz = m
      omega
    rw [if_neg hn, overwrite_mid pre (c.bytes v) rest _ (by simp) (by rw [bytes_length]; omega),
      bytes_length, h1]
    congr 1
    rw [List.flatten_cons, bytes_append, List.length_append, Nat.add_mul, List.drop_drop]
    simp only [List.append_assoc]

theorem distribute_pieces (L : List (List α)) : distribute (L.map List.length) L.flatten = .ok L := by
  induction L with
  | nil => rfl
  | cons v L ih =>
    simp only [List.map_cons, distribute, List.flatten_cons]
    rw [if_pos (by simp), List.drop_left, ih, List.take_left]
    rfl

end Verif.Mpi
