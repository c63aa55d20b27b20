import Verif.Model.NdGather
import Verif.Props.NdFreeze
import Verif.Props.NdOps

/-!
# C142: lists of indexes, tuples, and regions given step by step
-/

namespace Verif.Nd
open Verif

variable {R S : Nat} {α β γ : Type}

theorem count_fold (bs : List Bool) : ∀ acc, acc + bs.length < 2 ^ 64 → bs.foldl (fun acc b => w (acc + b.toNat)) acc = acc + (bs.filter id).length := by
  induction bs with
  | nil => intro acc _; rfl
  | cons b bs ih =>
    intro acc h
    rw [List.length_cons] at h
    have hb : b.toNat ≤ 1 := Bool.toNat_le b
    rw [List.foldl_cons, w_eq (by omega), ih _ (by omega)]
    cases b
    · simp
    · simp; omega

theorem whereLoop_ok {A : Arr R Bool} {m : Ix R → Bool} : ∀ (l : List (Ix R)), (∀ i ∈ l, A.get i = .ok (m i)) → ∀ (done rest : List (Ix R)),
    rest.length = (l.filter m).length → whereLoop A l done.length (done ++ rest) = .ok (done ++ l.filter m)
  | [], _, done, rest, h => by
    have : rest = [] := List.length_eq_zero_iff.1 h
    subst this
    rfl
  | i :: l, hl, done, rest, h => by
    have ih := whereLoop_ok l fun j hj => hl j (List.mem_cons_of_mem _ hj)
    rw [whereLoop, hl i (List.mem_cons_self ..), Outcome.bind_ok]
    cases hm : m i with
    | false =>
      rw [List.filter_cons_of_neg (by simp [hm])] at h ⊢
      exact ih done rest h
    | true =>
      rw [List.filter_cons_of_pos hm] at h ⊢
      cases rest with
      | nil => simp at h
      | cons r rest =>
        rw [if_pos rfl, if_pos (by rw [List.length_append, List.length_cons]; omega)]
        have e : (done ++ r :: rest).set done.length i = (done ++ [i]) ++ rest := by
          rw [List.set_append_right _ _ (Nat.le_refl _), Nat.sub_self]
          simp
        have e2 : done.length + 1 = (done ++ [i]).length := by rw [List.length_append]; rfl
        rw [e, e2, ih (done ++ [i]) rest (by simpa using h)]
        simp

theorem pairwise_nodup {l : List (Ix R)} (h : l.Pairwise RowMajor) : l.Nodup := h.imp fun {a b} h => by rintro rfl; exact rowMajor_irrefl _ h

/-- **C142, partial.** `where` gives the indexes at which the mask is true, all of them, each once, in row-major order; reading an array there gives its values at these indexes in the same
order.  Missing: shapes of rank two or more with an axis of extent zero (`where_empty_violated`), and arrays of `2^31` elements or more (C29). -/
theorem where_partial {M : Arr (R + 1) Bool} {A : Arr (R + 1) α} {s : Ix (R + 1)} {m : Ix (R + 1) → Bool} {f : Ix (R + 1) → α} (hM : Denotes M s m) (hA : Denotes A s f)
    (hp : (∀ a, 0 < s a) ∨ R = 0) (hc : count s < 2 ^ 31) :
    ∃ L W, whereIndexes M = .ok W ∧ (∀ i, i ∈ L ↔ InShape s i ∧ m i = true) ∧ L.Pairwise RowMajor ∧ (∀ a, W.shape a = L.length) ∧
      elements W = .ok L ∧ elements (readIndexes W A) = .ok (L.map f) := by
  have hb : ∀ a, s a < 2 ^ 64 := by
    intro a
    rcases hp with hp | rfl
    · have := le_count hp a; omega
    · have : count s = s 0 := by simp [count]
      rw [Fin.fin_one_eq_zero a]; omega
  obtain ⟨l, e1, h1, h2⟩ := indexes_shape_sorted hp hb
  have hg : ∀ i ∈ l, M.get i = .ok (m i) := fun i hi => hM.2 i ((h1 i).1 hi)
  have hlen : l.length ≤ count s := by
    have hs : l.toFinset ⊆ Fintype.piFinset (fun a => Finset.range (s a)) := by
      intro i hi
      simp only [List.mem_toFinset, h1] at hi
      simpa [InShape] using hi
    have := Finset.card_le_card hs
    rw [List.toFinset_card_of_nodup (pairwise_nodup h2), Fintype.card_piFinset] at this
    simpa [count] using this
  have hfl : (l.filter m).length ≤ l.length := List.length_filter_le _ _
  have hct : countTrue M = .ok (l.filter m).length := by
    unfold countTrue elements
    rw [hM.1, e1, Outcome.bind_ok, readAll_ok l hg, Outcome.map_ok, count_fold _ _ (by rw [List.length_map]; omega)]
    congr 1
    rw [Nat.zero_add, List.filter_map, List.length_map]
    rfl
  have hv : volume (fun _ : Fin 1 => (l.filter m).length) = (l.filter m).length := by
    rw [volume_small (by simp [count]; omega)]
    simp [count]
  have hlo := whereLoop_ok l hg [] (List.replicate (l.filter m).length fun _ => 0) (by simp)
  simp only [List.length_nil, List.nil_append] at hlo
  obtain ⟨W, hW, hWd⟩ := ofBuffer_denotes (s := fun _ : Fin 1 => (l.filter m).length) (f := fun k => (l.filter m).getD (k 0) fun _ => 0) (buf := l.filter m)
    (by simp [count]; omega) (by simp [count]) (by
      intro i hi
      have h0 := hi 0
      have : off (fun _ : Fin 1 => (l.filter m).length) i = i 0 := by simp [off, count]
      rw [this, List.getD_eq_getElem?_getD, List.getElem?_eq_getElem h0]
      rfl)
  have hin : ∀ k : Ix 1, k 0 < (l.filter m).length → InShape s ((l.filter m).getD (k 0) fun _ => 0) := by
    intro k hk
    rw [List.getD_eq_getElem?_getD, List.getElem?_eq_getElem hk]
    have := List.getElem_mem hk
    exact (h1 _).1 (List.mem_filter.1 this).1
  have hRd : Denotes (readIndexes W A) (fun _ => (l.filter m).length) (fun k => f ((l.filter m).getD (k 0) fun _ => 0)) := by
    refine ⟨hWd.1, fun k hk => ?_⟩
    show (W.get k).bind A.get = _
    rw [hWd.2 k hk, Outcome.bind_ok, hA.2 _ (hin k (hk 0))]
  refine ⟨l.filter m, W, ?_, fun i => by rw [List.mem_filter, h1], h2.filter _, fun a => by rw [hWd.1], ?_, ?_⟩
  · unfold whereIndexes
    rw [hct, Outcome.bind_ok, hv, if_neg (by omega), hM.1, e1, Outcome.bind_ok, hlo, Outcome.bind_ok, hW]
  · rw [elements_rank_one hWd (by omega)]
    refine congrArg Outcome.ok (List.ext_getElem (by rw [List.length_map, List.length_range]; try rw [List.length_map]) fun n h3 h4 => ?_)
    simp [List.getElem?_eq_getElem h4]
  · rw [elements_rank_one hRd (by omega)]
    refine congrArg Outcome.ok (List.ext_getElem (by rw [List.length_map, List.length_range]; try rw [List.length_map]) fun n h3 h4 => ?_)
    rw [List.length_map] at h4
    simp [List.getElem?_eq_getElem h4]

/-- Where a table of two rows and three columns has an odd number. -/
example : ∃ L W, whereIndexes (⟨![2, 3], fun i => .ok (decide ((i 0 + i 1) % 2 = 1))⟩ : Arr 2 Bool) = .ok W ∧
    elements (readIndexes W (⟨![2, 3], fun i => .ok (10 * i 0 + i 1)⟩ : Arr 2 Nat)) = .ok L ∧ 12 ∈ L ∧ 11 ∉ L := by
  obtain ⟨L, W, h1, h2, -, -, -, h3⟩ := where_partial (M := (⟨![2, 3], fun i => .ok (decide ((i 0 + i 1) % 2 = 1))⟩ : Arr 2 Bool))
    (A := (⟨![2, 3], fun i => .ok (10 * i 0 + i 1)⟩ : Arr 2 Nat)) (s := ![2, 3]) (m := fun i => decide ((i 0 + i 1) % 2 = 1)) (f := fun i => 10 * i 0 + i 1)
    ⟨rfl, fun _ _ => rfl⟩ ⟨rfl, fun _ _ => rfl⟩ (Or.inl (by decide)) (by decide)
  refine ⟨_, W, h1, h3, List.mem_map.2 ⟨![1, 2], (h2 _).2 ⟨by unfold InShape; decide, by decide⟩, rfl⟩, fun h => ?_⟩
  obtain ⟨i, hi, e⟩ := List.mem_map.1 h
  obtain ⟨a, b⟩ := (h2 i).1 hi
  have a1 : i 1 < 3 := a 1
  simp only [decide_eq_true_eq] at b
  omega

/-- **C142.** A mask and its opposite part an array: together the two lists of values have every element of the array once. -/
theorem where_parts {M : Arr (R + 1) Bool} {A : Arr (R + 1) α} {s : Ix (R + 1)} {m : Ix (R + 1) → Bool} {f : Ix (R + 1) → α} (hM : Denotes M s m) (hA : Denotes A s f)
    (hp : (∀ a, 0 < s a) ∨ R = 0) (hc : count s < 2 ^ 31) :
    ∃ V W x y z, whereIndexes M = .ok V ∧ whereIndexes (M.map (!·)) = .ok W ∧ elements (readIndexes V A) = .ok x ∧ elements (readIndexes W A) = .ok y ∧
      elements A = .ok z ∧ (x ++ y).Perm z := by
  have hb : ∀ a, s a < 2 ^ 64 := by
    intro a
    rcases hp with hp | rfl
    · have := le_count hp a; omega
    · have : count s = s 0 := by simp [count]
      rw [Fin.fin_one_eq_zero a]; omega
  obtain ⟨L, V, v1, v2, v3, -, -, v4⟩ := where_partial hM hA hp hc
  obtain ⟨K, W, w1, w2, w3, -, -, w4⟩ := where_partial (hM.map (!·)) hA hp hc
  obtain ⟨l, l1, l2, l3⟩ := elements_denotes hA hp hb
  refine ⟨V, W, _, _, _, v1, w1, v4, w4, l1, ?_⟩
  rw [← List.map_append]
  refine List.Perm.map f ?_
  rw [List.perm_ext_iff_of_nodup]
  · intro i
    rw [List.mem_append, v2, w2, l2]
    cases m i <;> simp
  · refine List.Nodup.append (pairwise_nodup v3) (pairwise_nodup w3) fun i hi hj => ?_
    have a := ((v2 i).1 hi).2
    have b := ((w2 i).1 hj).2
    rw [a] at b
    cases b
  · exact pairwise_nodup l3

example : Denotes (⟨![2, 3], fun i => .ok (decide (i 0 = 1))⟩ : Arr 2 Bool) ![2, 3] (fun i => decide (i 0 = 1)) ∧
    Denotes (⟨![2, 3], fun i => .ok (10 * i 0 + i 1)⟩ : Arr 2 Nat) ![2, 3] (fun i => 10 * i 0 + i 1) ∧ (∀ a, 0 < (![2, 3] : Ix 2) a) ∧ count (![2, 3] : Ix 2) < 2 ^ 31 :=
  ⟨⟨rfl, fun _ _ => rfl⟩, ⟨rfl, fun _ _ => rfl⟩, by decide, by decide⟩

/-- **C142, violated.** An array of shape (0, 3) has no element, but three indexes are given. -/
theorem where_empty_violated : ∃ W, whereIndexes (promote true (![0, 3] : Ix 2)) = .ok W ∧ (∀ i, ¬ InShape (![0, 3] : Ix 2) i) ∧ W.shape 0 = 3 := by
  have e : whereIndexes (promote true (![0, 3] : Ix 2)) = ofBuffer (fun _ => 3) [![0, 0], ![0, 1], ![0, 2]] := by
    have e1 : countTrue (promote true (![0, 3] : Ix 2)) = .ok 3 := by
      unfold countTrue elements
      show ((makeAccessPattern (![0, 3] : Ix 2)).indexes.bind _).map _ = _
      rw [iterate_empty_witness.2]
      rfl
    unfold whereIndexes
    rw [e1, Outcome.bind_ok]
    show (if volume (fun _ : Fin 1 => 3) ≥ 2 ^ 63 then Outcome.throws Exn.badAlloc else (makeAccessPattern (![0, 3] : Ix 2)).indexes.bind fun l =>
      (whereLoop (promote true (![0, 3] : Ix 2)) l 0 (List.replicate (volume fun _ : Fin 1 => 3) fun _ => 0)).bind fun buf => ofBuffer (fun _ => 3) buf) = _
    rw [show volume (fun _ : Fin 1 => 3) = 3 by decide, if_neg (by decide), iterate_empty_witness.2]
    rfl
  rw [e]
  unfold ofBuffer
  rw [show volume (fun _ : Fin 1 => 3) = 3 by decide, if_neg (by simp)]
  exact ⟨_, rfl, iterate_empty_witness.1, rfl⟩

/-- **C142.** Reading an array at an array of indexes: the result has the shape of the latter.  An index outside of an array with `bounds_check` is an exception. -/
theorem read_indexes {I : Arr S (Ix R)} {A : Arr R α} {t : Ix S} {s : Ix R} {g : Ix S → Ix R} {f : Ix R → α} (hI : Denotes I t g) (hA : Denotes A s f) :
    ((∀ k, InShape t k → InShape s (g k)) → Denotes (readIndexes I A) t fun k => f (g k)) ∧
    ∀ k, InShape t k → ¬ InShape s (g k) → (readIndexes I (boundsCheck A)).get k = .throws .outOfRange := by
  refine ⟨fun h => ⟨hI.1, fun k hk => ?_⟩, fun k hk h => ?_⟩
  · show (I.get k).bind A.get = _
    rw [hI.2 k hk, Outcome.bind_ok, hA.2 _ (h k hk)]
  · show (I.get k).bind (boundsCheck A).get = _
    rw [hI.2 k hk, Outcome.bind_ok]
    exact (bounds_check A (g k)).2.2 (by rwa [hA.1])

/-- A list read backwards, and beyond its end. -/
example : Denotes (readIndexes (⟨fun _ : Fin 1 => 3, fun k => .ok fun _ => 2 - k 0⟩ : Arr 1 (Ix 1)) (arange 3)) (fun _ => 3) (fun k => 2 - k 0) ∧
    (readIndexes (⟨fun _ : Fin 1 => 3, fun k => .ok fun _ => 2 + k 0⟩ : Arr 1 (Ix 1)) (boundsCheck (arange 3))).get (fun _ => 1) = .throws .outOfRange :=
  ⟨(read_indexes (g := fun k _ => 2 - k 0) (s := fun _ => 3) (f := fun i => i 0) ⟨rfl, fun _ _ => rfl⟩ ⟨rfl, fun _ _ => rfl⟩).1 fun k hk a => by
      show 2 - k 0 < 3
      omega,
    (read_indexes (t := fun _ => 3) (g := fun k _ => 2 + k 0) (s := fun _ => 3) (f := fun i => i 0) ⟨rfl, fun _ _ => rfl⟩ ⟨rfl, fun _ _ => rfl⟩).2 _
      (by unfold InShape; decide) (by unfold InShape; decide)⟩

/-- **C142.** What was zipped is unzipped; a function applied to a zipped array is applied to the elements of both; arrays of different shapes are not zipped. -/
theorem zip_unzip {A : Arr R α} {B : Arr R β} {s : Ix R} {f : Ix R → α} {g : Ix R → β} (hA : Denotes A s f) (hB : Denotes B s g) (u : α → β → γ) :
    (∃ Z, zip A B = .ok Z ∧ Denotes (unzip Z).1 s f ∧ Denotes (unzip Z).2 s g ∧ Denotes (apply u Z) s fun i => u (f i) (g i)) ∧
    ∀ C : Arr R β, C.shape ≠ s → zip A C = .throws .logicError := by
  obtain ⟨Z, h1, h2⟩ := binaryOp_denotes (u := Prod.mk) hA hB
  refine ⟨⟨Z, h1, h2.map _, h2.map _, h2.map _⟩, fun C hC => ?_⟩
  unfold zip binaryOp
  rw [if_pos fun e => hC (e.symm.trans hA.1)]

example : Denotes (arange 3) (fun _ => 3) (fun i => i 0) ∧ Denotes (promote 'a' (fun _ : Fin 1 => 3)) (fun _ => 3) (fun _ => 'a') ∧ (promote 'a' (fun _ : Fin 1 => 4)).shape ≠ fun _ => 3 :=
  ⟨⟨rfl, fun _ _ => rfl⟩, ⟨rfl, fun _ _ => rfl⟩, fun h => absurd (congrFun h 0) (by decide)⟩

/-- **C142.** What is said of a region later counts: after `from`, `to` and `jumping` in any order and with any words before, the region is the one with the last start, end and jump.
Hence a part of an array selected in this way is the part from `i` to `j`, and it can be replaced in the same way. -/
theorem select_replace_from {A B : Arr R α} {s i j k : Ix R} {f g : Ix R → α} (hA : Denotes A s f) (hs : ∀ a, s a < 2 ^ 64) (h : ∀ a, i a < j a ∧ j a ≤ s a)
    (hB : Denotes B (fun a => j a - i a) g) {l : List (Word R)} (hl : l = [.to j] ∨ l = [.jumping fun _ => 1, .to j] ∨ l = [.to j, .jumping fun _ => 1] ∨
      l = [.to k, .jumping k, .from i, .to j, .jumping fun _ => 1]) :
    (∃ P, selectFrom i l A = .ok P ∧ Denotes P (fun a => j a - i a) fun n => f fun a => i a + n a) ∧
    ∃ C D c, replaceFrom i l B A = .ok C ∧ selectFrom i l C = .ok D ∧ Denotes D (fun a => j a - i a) g ∧ Denotes C s c ∧ ∀ n, InShape s n → (∃ a, n a < i a ∨ j a ≤ n a) → c n = f n := by
  have hr : l.foldl AccessPattern.say (AccessPattern.default.say (.from i)) = (⟨i, j, fun _ => 1⟩ : AccessPattern R) := by
    rcases hl with rfl | rfl | rfl | rfl <;> rfl
  have reg : Regular (⟨i, j, fun _ => 1⟩ : AccessPattern R) := fun a => ⟨(h a).1, Nat.one_pos, by have := (h a).2; have := hs a; show j a + 1 ≤ _; omega⟩
  have sh : (⟨i, j, fun _ => 1⟩ : AccessPattern R).shape = fun a => j a - i a := by
    funext a
    rw [AccessPattern.shape_eq reg]
    have := (h a).1
    show (j a - i a - 1) / 1 + 1 = _
    omega
  have hw : ∀ a, (⟨i, j, fun _ => 1⟩ : AccessPattern R).start a + (⟨i, j, fun _ => 1⟩ : AccessPattern R).jumps a * (⟨i, j, fun _ => 1⟩ : AccessPattern R).shape a ≤ s a := by
    intro a
    rw [sh]
    have := h a
    show i a + 1 * (j a - i a) ≤ _
    omega
  unfold selectFrom replaceFrom
  rw [hr]
  refine ⟨?_, ?_⟩
  · obtain ⟨P, h1, h2, -⟩ := (select_partial _ reg A s f hA).1 hw
    rw [sh] at h2
    refine ⟨P, h1, h2.congr rfl fun n _ => ?_⟩
    show f (fun a => i a + 1 * n a) = _
    simp only [one_mul]
  · rw [← sh] at hB
    obtain ⟨C, D, h1, h2, h3⟩ := select_replace _ reg A B s f g hA (fun a => (hs a).le) hB hw
    obtain ⟨C', c, h4, h5, h6, -⟩ := replace_region _ reg A B s f g hA (fun a => (hs a).le) hB
    rw [h1] at h4
    cases h4
    rw [sh] at h3
    refine ⟨C, D, c, h1, h2, h3, h5, fun n hn ⟨a, ha⟩ => h6 n hn fun hin => ?_⟩
    obtain ⟨q, hq, hq'⟩ := hin a
    have hq : n a = i a + q * 1 := hq
    have hq' : n a < j a := hq'
    omega

/-- The second and third of four elements. -/
example : ∃ P, selectFrom (fun _ => 1) [.jumping fun _ => 1, .to fun _ => 3] (arange 4) = .ok P ∧ Denotes P (fun _ => 2) fun n => 1 + n 0 :=
  (select_replace_from (A := arange 4) (B := arange 2) (s := fun _ => 4) (i := fun _ => 1) (j := fun _ => 3) (k := fun _ => 9) (f := fun i => i 0) (g := fun i => i 0)
    ⟨rfl, fun _ _ => rfl⟩ (by decide) (by decide) ⟨rfl, fun _ _ => rfl⟩ (Or.inr (Or.inl rfl))).1

/-- **C142, violated.** `select_from(i)` without an end is not "from `i` to the end": it is accepted and gives an array of nearly `2^64` elements. -/
theorem select_from_violated : ∃ P, selectFrom (fun _ => 1) [] (arange 4) = .ok P ∧ P.shape 0 = 2 ^ 64 - 1 := by
  unfold selectFrom select
  rw [if_neg (by decide), if_neg (by decide)]
  exact ⟨_, rfl, by decide⟩

end Verif.Nd
