import Verif.Model.Parallel
import Verif.Props.NdArray
import Verif.Props.NdOps
import Mathlib.Data.Nat.Prime.Basic
import Mathlib.Algebra.BigOperators.Group.List.Basic
import Mathlib.Algebra.Order.BigOperators.Group.Finset
import Mathlib.Data.Fintype.Lattice

/-!
# C27, C28, C78: parallel evaluation and block decomposition
-/

namespace Verif.Par
open Verif Verif.Nd

variable {R : Nat} {α ι : Type}

/-! ## C27 -/

theorem Interleaving.perm {ls : List (List ι)} {l : List ι} (h : Interleaving ls l) : l.Perm ls.flatten := by
  induction h with
  | done h => rw [List.flatten_eq_nil_iff.2 h]
  | @step ls n x rest l h _ ih =>
    obtain ⟨hn, he⟩ := List.getElem?_eq_some_iff.1 h
    rw [List.set_eq_take_append_cons_drop, if_pos hn] at ih
    have h2 : ls.flatten = (ls.take n ++ (x :: rest) :: ls.drop (n + 1)).flatten := by
      rw [← he]
      conv_lhs => rw [← List.set_getElem_self hn, List.set_eq_take_append_cons_drop, if_pos hn]
    rw [h2]
    simp only [List.flatten_append, List.flatten_cons, List.cons_append] at ih ⊢
    exact (ih.cons x).trans List.perm_middle.symm

theorem exists_interleaving (ls : List (List ι)) : ∃ l, Interleaving ls l := by
  induction h : ls.flatten.length generalizing ls with
  | zero =>
    refine ⟨[], .done fun l hl => ?_⟩
    have : ls.flatten = [] := List.length_eq_zero_iff.1 h
    exact List.flatten_eq_nil_iff.1 this l hl
  | succ k ih =>
    have : ∃ l ∈ ls, l ≠ [] := by
      by_contra hc
      push Not at hc
      rw [List.flatten_eq_nil_iff.2 hc] at h
      simp at h
    obtain ⟨l, hl, hne⟩ := this
    obtain ⟨n, hn, he⟩ := List.getElem_of_mem hl
    obtain ⟨x, rest, rfl⟩ := List.exists_cons_of_ne_nil hne
    obtain ⟨m, hm⟩ := ih (ls.set n rest) (by
      rw [List.set_eq_take_append_cons_drop, if_pos hn]
      have h2 : ls.flatten = (ls.take n ++ (x :: rest) :: ls.drop (n + 1)).flatten := by
        rw [← he]
        conv_lhs => rw [← List.set_getElem_self hn, List.set_eq_take_append_cons_drop, if_pos hn]
      rw [h2] at h
      simp only [List.flatten_append, List.flatten_cons, List.length_append, List.length_cons] at h ⊢
      omega)
    exact ⟨x :: m, .step (by rw [List.getElem?_eq_getElem hn, he]) hm⟩

theorem find_cut (c : Nat → Nat) (h0 : c 0 = 0) (x m : Nat) (h : x < c m) : ∃ n < m, c n ≤ x ∧ x < c (n + 1) := by
  induction m with
  | zero => omega
  | succ m ih =>
    by_cases hx : x < c m
    · obtain ⟨n, h1, h2⟩ := ih hx
      exact ⟨n, by omega, h2⟩
    · exact ⟨m, by omega, by omega, h⟩

theorem cut_unique (c : Nat → Nat) (hm : ∀ k, c k ≤ c (k + 1)) (x m n : Nat) (h1 : c m ≤ x) (h2 : x < c (m + 1))
    (h3 : c n ≤ x) (h4 : x < c (n + 1)) : m = n := by
  have mono : Monotone c := monotone_nat_of_le_succ hm
  rcases Nat.lt_trichotomy m n with h | h | h
  · have := mono (show m + 1 ≤ n by omega); omega
  · exact h
  · have := mono (show n + 1 ≤ m by omega); omega

/-- The indexes visited by one thread. -/
theorem thread_indexes (N : Nat) (s : Ix (R + 1)) (hN : 0 < N) (hp : (∀ a, 0 < s a) ∨ R = 0)
    (hle : N ≤ s 0 ∨ R = 0) (hb : ∀ a, s a < 2 ^ 64) (hbN : N * s 0 < 2 ^ 64) (n : Nat) (hn : n < N) :
    ∃ l, threadIndexes N s n = .ok l ∧ l.Nodup ∧
      ∀ i, i ∈ l ↔ InShape s i ∧ n * s 0 / N ≤ i 0 ∧ i 0 < (n + 1) * s 0 / N := by
  have h1 : (n + 1) * s 0 ≤ N * s 0 := Nat.mul_le_mul_right _ hn
  have h2 : n * s 0 ≤ (n + 1) * s 0 := Nat.mul_le_mul_right _ (by omega)
  have hq := group_bounds n (s 0) N hN
  have hcut : (n + 1) * s 0 / N ≤ s 0 := by
    have := Nat.div_le_div_right (c := N) h1
    rwa [Nat.mul_div_cancel_left _ hN] at this
  have hb0 := hb 0
  have e : partitionShape N s n = ⟨Function.update (fun _ => 0) 0 (n * s 0 / N),
      Function.update s 0 ((n + 1) * s 0 / N), fun _ => 1⟩ := by
    unfold partitionShape
    rw [w_eq (n := n * s 0) (by omega), w_eq (n := (n + 1) * s 0) (by omega)]
    rfl
  unfold threadIndexes
  rw [e]
  by_cases hlt : n * s 0 / N < (n + 1) * s 0 / N
  · have hp' : ∀ a, 0 < s a := by
      rcases hp with hp | rfl
      · exact hp
      · intro a
        rw [Fin.fin_one_eq_zero a]
        exact lt_of_le_of_lt (Nat.zero_le _) (lt_of_lt_of_le hlt hcut)
    obtain ⟨l, g1, g2, _, g4, _⟩ := iterate_region
      (⟨Function.update (fun _ => 0) 0 (n * s 0 / N), Function.update s 0 ((n + 1) * s 0 / N), fun _ => 1⟩ :
        AccessPattern (R + 1)) (fun a => by
        by_cases ha : a = 0
        · subst ha; simp only [Function.update_self]; omega
        · simp only [Function.update_of_ne ha]; have := hp' a; have := hb a; omega)
    refine ⟨l, g1, g4, fun i => ?_⟩
    rw [g2]
    unfold InRegion
    constructor
    · intro h
      have hi : ∀ a, i a < s a ∧ (a = 0 → n * s 0 / N ≤ i 0 ∧ i 0 < (n + 1) * s 0 / N) := by
        intro a
        obtain ⟨k, hk, hl⟩ := h a
        by_cases ha : a = 0
        · subst ha; simp only [Function.update_self] at hk hl
          exact ⟨by omega, fun _ => ⟨by omega, hl⟩⟩
        · simp only [Function.update_of_ne ha] at hk hl
          exact ⟨hl, fun h => absurd h ha⟩
      exact ⟨fun a => (hi a).1, (hi 0).2 rfl⟩
    · rintro ⟨g1, g2, g3⟩ a
      by_cases ha : a = 0
      · subst ha; simp only [Function.update_self]
        exact ⟨i 0 - n * s 0 / N, by omega, g3⟩
      · simp only [Function.update_of_ne ha]
        exact ⟨i a, by omega, g1 a⟩
  · have hR : R = 0 := by
      rcases hle with hle | h
      · exfalso
        have : 1 ≤ s 0 / N := (Nat.one_le_div_iff hN).2 hle
        omega
      · exact h
    subst hR
    refine ⟨[], iterate_empty_partial _ ?_, by simp, fun i => ⟨fun h => absurd h (by simp), ?_⟩⟩
    · funext a
      rw [Fin.fin_one_eq_zero a]
      simp only [Function.update_self]
      omega
    · rintro ⟨_, h3, h4⟩; omega

/-- Evaluating on `N` threads: if there are at most as many threads as rows, or the rank is one, then every element
is written exactly once, no two threads write the same memory, and whatever the interleaving of the threads
the result is the array. -/
theorem evaluate_on_partial [Inhabited α] (N : Nat) (A : Arr (R + 1) α) (s : Ix (R + 1)) (f : Ix (R + 1) → α)
    (hA : Denotes A s f) (hN : 0 < N) (hp : (∀ a, 0 < s a) ∨ R = 0) (hle : N ≤ s 0 ∨ R = 0)
    (hc : count s < 2 ^ 31) (hbN : N * s 0 < 2 ^ 64) :
    (∃ ls, List.Forall₂ (fun n l => threadIndexes N s n = .ok l) (List.range N) ls ∧ ls.flatten.Nodup ∧
      (∀ i, i ∈ ls.flatten ↔ InShape s i) ∧ ¬ Races (strides s) ls) ∧
    (∃ o, EvaluatesOn N A o) ∧ ∀ o, EvaluatesOn N A o → ∃ B, o = .ok B ∧ Denotes B s f := by
  obtain ⟨rfl, hf⟩ := hA
  have hb : ∀ a, A.shape a < 2 ^ 64 := by
    intro a
    rcases hp with hp | rfl
    · have := le_count hp a; omega
    · have : count A.shape = A.shape 0 := by simp [count]
      rw [Fin.fin_one_eq_zero a]; omega
  choose! t ht using fun n (hn : n < N) => thread_indexes N A.shape hN hp hle hb hbN n hn
  set c : Nat → Nat := fun n => n * A.shape 0 / N with hcdef
  have cmono : ∀ k, c k ≤ c (k + 1) := fun k => (group_bounds k (A.shape 0) N hN).1
  have c0 : c 0 = 0 := by simp [hcdef]
  have cN : c N = A.shape 0 := Nat.mul_div_cancel_left _ hN
  have hall : List.Forall₂ (fun n l => threadIndexes N A.shape n = .ok l) (List.range N) ((List.range N).map t) := by
    rw [List.forall₂_map_right_iff, List.forall₂_same]
    intro n hn
    exact (ht n (List.mem_range.1 hn)).1
  have huniq : ∀ ls, List.Forall₂ (fun n l => threadIndexes N A.shape n = .ok l) (List.range N) ls →
      ls = (List.range N).map t := by
    intro ls h
    have : ∀ (ns : List Nat) (ls : List (List (Ix (R + 1)))), (∀ n ∈ ns, n < N) →
        List.Forall₂ (fun n l => threadIndexes N A.shape n = .ok l) ns ls → ls = ns.map t := by
      intro ns ls hns h
      induction h with
      | nil => rfl
      | cons h1 _ ih =>
        rw [List.map_cons, ← ih fun n hn => hns n (by simp [hn])]
        rw [(ht _ (hns _ (by simp))).1] at h1
        injection h1 with h1
        rw [h1]
    exact this _ _ (fun n hn => List.mem_range.1 hn) h
  have hmem : ∀ i, i ∈ ((List.range N).map t).flatten ↔ InShape A.shape i := by
    intro i
    simp only [List.mem_flatten, List.mem_map, List.mem_range, exists_exists_and_eq_and]
    constructor
    · rintro ⟨n, hn, hi⟩
      exact ((ht n hn).2.2 i).1 hi |>.1
    · intro hi
      obtain ⟨n, hn, h1, h2⟩ := find_cut c c0 (i 0) N (by rw [cN]; exact hi 0)
      exact ⟨n, hn, ((ht n hn).2.2 i).2 ⟨hi, h1, h2⟩⟩
  have hnr : ¬ Races (strides A.shape) ((List.range N).map t) := by
    rintro ⟨m, n, l, l', i, j, hmn, h1, h2, hi, hj, ho⟩
    rw [List.getElem?_map, Option.map_eq_some_iff] at h1 h2
    obtain ⟨m', hm, rfl⟩ := h1
    obtain ⟨n', hn, rfl⟩ := h2
    rw [List.getElem?_eq_some_iff] at hm hn
    obtain ⟨hm1, hm2⟩ := hm
    obtain ⟨hn1, hn2⟩ := hn
    rw [List.getElem_range] at hm2 hn2
    subst hm2 hn2
    rw [List.length_range] at hm1 hn1
    obtain ⟨a1, a2, a3⟩ := ((ht m hm1).2.2 i).1 hi
    obtain ⟨b1, b2, b3⟩ := ((ht n hn1).2.2 j).1 hj
    have := (offset_bijection A.shape (by omega)).2.1 i j a1 b1 ho
    subst this
    exact hmn (cut_unique c cmono (i 0) m n a2 a3 b2 b3)
  refine ⟨⟨_, hall, ?_, hmem, hnr⟩, ?_, ?_⟩
  · rw [List.nodup_flatten]
    refine ⟨?_, ?_⟩
    · intro l hl
      rw [List.mem_map] at hl
      obtain ⟨n, hn, rfl⟩ := hl
      exact (ht n (List.mem_range.1 hn)).2.1
    · rw [List.pairwise_map]
      refine List.Pairwise.imp_of_mem ?_ List.pairwise_lt_range
      intro m n hm hn hlt i hi hj
      obtain ⟨_, a2, a3⟩ := ((ht m (List.mem_range.1 hm)).2.2 i).1 hi
      obtain ⟨_, b2, b3⟩ := ((ht n (List.mem_range.1 hn)).2.2 i).1 hj
      have := cut_unique c cmono (i 0) m n a2 a3 b2 b3
      omega
  · obtain ⟨l, hl⟩ := exists_interleaving ((List.range N).map t)
    refine ⟨(writeAll A (strides A.shape) l (List.replicate (volume A.shape) default)).bind (ofBuffer A.shape), ?_⟩
    unfold EvaluatesOn
    rw [if_neg (by rw [volume_small hc]; omega)]
    exact ⟨_, hall, Or.inr ⟨l, hl, rfl⟩⟩
  · intro o ho
    unfold EvaluatesOn at ho
    rw [if_neg (by rw [volume_small hc]; omega)] at ho
    obtain ⟨ls, h1, h2⟩ := ho
    rw [huniq ls h1] at h2
    rcases h2 with ⟨h2, _⟩ | ⟨l, hl, rfl⟩
    · exact absurd h2 hnr
    · have hm : ∀ i, i ∈ l ↔ InShape A.shape i := fun i => by rw [hl.perm.mem_iff, hmem]
      obtain ⟨buf, g1, g2, g3⟩ := writeAll_ok (A := A) (s := A.shape) (f := f) (by omega) l
        (fun i hi => ⟨(hm i).1 hi, hf i ((hm i).1 hi)⟩) (List.replicate (volume A.shape) default)
        (by rw [List.length_replicate, volume_small hc])
      obtain ⟨B, hB, hd⟩ := ofBuffer_denotes hc g2 (fun i hi => (g3 i hi).1 ((hm i).2 hi))
      exact ⟨B, by rw [g1, Outcome.bind_ok, hB], hd⟩

example : (∃ o, EvaluatesOn 3 (indexArray (![5, 3] : Ix 2)) o) ∧
    ∀ o, EvaluatesOn 3 (indexArray (![5, 3] : Ix 2)) o → ∃ B, o = .ok B ∧ Denotes B ![5, 3] id :=
  (evaluate_on_partial 3 (indexArray (![5, 3] : Ix 2)) ![5, 3] id ⟨rfl, fun _ _ => rfl⟩ (by decide)
    (.inl (by decide)) (.inl (by decide)) (by decide) (by decide)).2

/-- VIOLATION: with more threads than rows of an array of rank two or more, two threads write the first element. -/
theorem evaluate_on_race_violated (N : Nat) (s : Ix (R + 2)) (hp : ∀ a, 0 < s a) (hN : s 0 < N)
    (hb : ∀ a, s a < 2 ^ 64) (hbN : N * s 0 < 2 ^ 64) (ls : List (List (Ix (R + 2))))
    (hls : List.Forall₂ (fun n l => threadIndexes N s n = .ok l) (List.range N) ls) : Races (strides s) ls := by
  have hN0 : 0 < N := by omega
  set c : Nat → Nat := fun n => n * s 0 / N with hcdef
  have c0 : c 0 = 0 := by simp [hcdef]
  have c1 : c 1 = 0 := by simp only [hcdef, Nat.one_mul]; exact Nat.div_eq_of_lt hN
  have cN : c N = s 0 := Nat.mul_div_cancel_left _ hN0
  obtain ⟨n, hn, h1, h2⟩ := find_cut c c0 0 N (by rw [cN]; exact hp 0)
  have hn0 : n ≠ 0 := by rintro rfl; rw [c1] at h2; omega
  have get : ∀ m, m < N → ∃ l, ls[m]? = some l ∧ threadIndexes N s m = .ok l := by
    intro m hm
    have hlen := hls.length_eq
    rw [List.length_range] at hlen
    refine ⟨ls[m]'(by omega), List.getElem?_eq_getElem _, ?_⟩
    have := hls.get (i := m) (by simpa using hm) (by omega)
    simpa using this
  have hstart : ∀ m, m < N → c m = 0 → ∀ l, threadIndexes N s m = .ok l → (fun _ => 0) ∈ l := by
    intro m hm hc l hl
    have hbm : m * s 0 ≤ N * s 0 := Nat.mul_le_mul_right _ (le_of_lt hm)
    have e : (partitionShape N s m).start = fun _ => 0 := by
      unfold partitionShape
      rw [w_eq (n := m * s 0) (by omega)]
      simp only [hcdef] at hc
      rw [hc]
      exact Function.update_eq_self 0 _
    have := iterate_empty_violated (partitionShape N s m) (fun h => by
      have h := congrFun h 1
      rw [e] at h
      have hf : (partitionShape N s m).final 1 = s 1 := by
        unfold partitionShape
        simp only
        rw [Function.update_of_ne (show (1 : Fin (R + 2)) ≠ 0 by simp)]
      rw [hf] at h
      exact absurd h (Nat.ne_of_lt (hp 1))) l hl
    rwa [e] at this
  obtain ⟨l, g1, g2⟩ := get 0 hN0
  obtain ⟨l', g3, g4⟩ := get n hn
  exact ⟨0, n, l, l', _, _, fun h => hn0 h.symm, g1, g3, hstart 0 hN0 c0 l g2, hstart n hn (by omega) l' g4, rfl⟩

/-- A 1 x 2 array on two threads: both threads write both elements. -/
theorem evaluate_on_race_witness :
    threadIndexes 2 (![1, 2] : Ix 2) 0 = .ok [![0, 0], ![0, 1]] ∧
    threadIndexes 2 (![1, 2] : Ix 2) 1 = .ok [![0, 0], ![0, 1]] ∧
    EvaluatesOn 2 (promote 7 (![1, 2] : Ix 2)) .ub := by
  have h0 : threadIndexes 2 (![1, 2] : Ix 2) 0 = .ok [![0, 0], ![0, 1]] := by decide +kernel
  have h1 : threadIndexes 2 (![1, 2] : Ix 2) 1 = .ok [![0, 0], ![0, 1]] := by decide +kernel
  refine ⟨h0, h1, ?_⟩
  unfold EvaluatesOn
  have hv : volume (promote 7 (![1, 2] : Ix 2)).shape = 2 := by decide +kernel
  rw [hv, if_neg (by norm_num)]
  have hl : List.Forall₂ (fun n l => threadIndexes 2 (promote 7 (![1, 2] : Ix 2)).shape n = .ok l) (List.range 2)
      [[![0, 0], ![0, 1]], [![0, 0], ![0, 1]]] := .cons h0 (.cons h1 .nil)
  exact ⟨_, hl, Or.inl ⟨evaluate_on_race_violated 2 ![1, 2] (by decide) (by decide) (by decide) (by decide) _ hl, rfl⟩⟩

/-- The hypotheses: 5 x 3 elements on three threads; two elements of rank one on four threads. -/
example : Denotes (indexArray (![5, 3] : Ix 2)) ![5, 3] id ∧ (∀ a, 0 < (![5, 3] : Ix 2) a) ∧ 3 ≤ (![5, 3] : Ix 2) 0 ∧
    count (![5, 3] : Ix 2) < 2 ^ 31 ∧ 3 * (![5, 3] : Ix 2) 0 < 2 ^ 64 ∧ Denotes (arange 2) (fun _ => 2) (fun i => i 0) :=
  ⟨⟨rfl, fun _ _ => rfl⟩, by decide, by decide, by decide, by decide, rfl, fun _ _ => rfl⟩

/-! ## C28 prime factors -/

theorem factorOnceFrom_spec (num : Nat) (hnum : 2 ≤ num) (hb : num < 2147395600) (fuel d : Nat) (hd : 2 ≤ d)
    (hf : 46341 < d + fuel) (hno : ∀ k, 2 ≤ k → k < d → ¬ k ∣ num) (hd' : d ≤ 46340) :
    ∃ p q, factorOnceFrom num fuel d = .ok (p, q) ∧ p.Prime ∧ p * q = num := by
  induction fuel generalizing d with
  | zero => omega
  | succ fuel ih =>
    unfold factorOnceFrom
    by_cases h1 : num % d = 0
    · rw [if_pos h1]
      have hdvd := Nat.dvd_of_mod_eq_zero h1
      refine ⟨d, num / d, rfl, ?_, Nat.mul_div_cancel' hdvd⟩
      rw [Nat.prime_def]
      refine ⟨hd, fun m hm => ?_⟩
      by_contra hc
      push Not at hc
      have hm0 : 0 < m := Nat.pos_of_dvd_of_pos hm (by omega)
      have hmd : m ≤ d := Nat.le_of_dvd (by omega) hm
      exact hno m (by omega) (by omega) (hm.trans hdvd)
    · rw [if_neg h1]
      have hsq : d * d ≤ 46340 * 46340 := Nat.mul_le_mul hd' hd'
      rw [if_neg (by omega)]
      by_cases h2 : d * d > num
      · rw [if_pos h2]
        refine ⟨num, 1, rfl, ?_, by omega⟩
        rw [Nat.prime_def_le_sqrt]
        refine ⟨hnum, fun m hm hs hdvd => ?_⟩
        have : m * m ≤ num := (Nat.le_sqrt).1 hs
        have hmd : m < d := by
          by_contra hc
          have : d * d ≤ m * m := Nat.mul_le_mul (by omega) (by omega)
          omega
        exact hno m hm hmd hdvd
      · rw [if_neg h2]
        have hlt : d < 46340 := by
          by_contra hc
          have : d = 46340 := by omega
          subst this
          omega
        refine ih (d + 1) (by omega) (by omega) (fun k hk hkd => ?_) (by omega)
        by_cases hkd' : k = d
        · subst hkd'; intro hdv; exact h1 (Nat.mod_eq_zero_of_dvd hdv)
        · exact hno k hk (by omega)

theorem factorOnce_spec (num : Nat) (hnum : 2 ≤ num) (hb : num < 2147395600) :
    ∃ p q, factorOnce num = .ok (p, q) ∧ p.Prime ∧ p * q = num :=
  factorOnceFrom_spec num hnum hb 46341 2 le_rfl (by omega) (fun k h1 h2 => by omega) (by omega)

theorem primeFactorsImpl_spec (fuel num : Nat) (hnum : 2 ≤ num) (hb : num < 2147395600) (hf : num < 2 ^ fuel) :
    ∃ l, primeFactorsImpl fuel num = .ok l ∧ l.prod = num ∧ ∀ p ∈ l, p.Prime := by
  induction fuel generalizing num with
  | zero => omega
  | succ fuel ih =>
    obtain ⟨p, q, h1, hp, hpq⟩ := factorOnce_spec num hnum hb
    unfold primeFactorsImpl
    rw [h1, Outcome.bind_ok]
    by_cases hq : q = 1
    · subst hq
      exact ⟨[p], by simp, by simp; omega, by simp [hp]⟩
    · rw [if_neg hq]
      have hq0 : q ≠ 0 := by rintro rfl; omega
      have hp2 := hp.two_le
      have : p * 2 ≤ num := by rw [← hpq]; exact Nat.mul_le_mul_left p (by omega)
      have : 2 * q ≤ num := by rw [← hpq]; exact Nat.mul_le_mul_right q hp2
      rw [Nat.pow_succ] at hf
      obtain ⟨l, g1, g2, g3⟩ := ih p hp2 (by omega) (by omega)
      obtain ⟨l', g4, g5, g6⟩ := ih q (by omega) (by omega) (by omega)
      refine ⟨l ++ l', ?_, by rw [List.prod_append, g2, g5, hpq], ?_⟩
      · simp only; rw [g1, Outcome.bind_ok, g4, Outcome.bind_ok]
      · intro x hx
        rcases List.mem_append.1 hx with hx | hx
        · exact g3 x hx
        · exact g6 x hx

/-- Factoring a number: the list of factors has the number as its product and consists of primes (for the number
one it is the list `[1]`). -/
theorem prime_factors_partial (n : Nat) (h0 : 0 < n) (hb : n < 2147395600) :
    ∃ l, primeFactors n = .ok l ∧ l.prod = n ∧ (1 < n → ∀ p ∈ l, p.Prime) ∧ l ≠ [] := by
  by_cases h1 : n = 1
  · subst h1
    exact ⟨[1], by decide +kernel, rfl, fun h => absurd h (by decide), by simp⟩
  · obtain ⟨l, g1, g2, g3⟩ := primeFactorsImpl_spec 32 n (by omega) hb (by omega)
    exact ⟨l, g1, g2, fun _ => g3, by rintro rfl; simp at g2; omega⟩

example : ∃ l, primeFactors 360 = .ok l ∧ l.prod = 360 ∧ (∀ p ∈ l, p.Prime) := by
  obtain ⟨l, h1, h2, h3, _⟩ := prime_factors_partial 360 (by decide) (by decide)
  exact ⟨l, h1, h2, h3 (by decide)⟩

/-- VIOLATION: for zero subdomains the recursion does not end; for the prime number `2^31 - 1` the search for
a factor overflows. -/
theorem prime_factors_violated : primeFactors 0 = .diverges ∧ primeFactors 2147483647 = .ub := by
  constructor <;> decide +kernel

theorem collect_ok {β : Type} (f : ι → Outcome β) (g : ι → β) (l : List ι) (h : ∀ x ∈ l, f x = .ok (g x)) :
    collect f l = .ok (l.map g) := by
  induction l with
  | nil => rfl
  | cons x l ih =>
    rw [collect, h x (by simp), Outcome.bind_ok, ih fun y hy => h y (by simp [hy]), Outcome.bind_ok]
    rfl

theorem foldl_mul_eq_prod (l : List Nat) : l.foldl (· * ·) 1 = l.prod := by
  rw [List.prod_eq_foldl]

theorem length_le_prod (l : List Nat) (h : ∀ p ∈ l, 2 ≤ p) : l.length < 2 ^ l.length ∧ 2 ^ l.length ≤ l.prod := by
  refine ⟨Nat.lt_two_pow_self, ?_⟩
  induction l with
  | nil => simp
  | cons p l ih =>
    rw [List.length_cons, List.prod_cons, Nat.pow_succ, mul_comm]
    exact Nat.mul_le_mul (h p (by simp)) (ih fun q hq => h q (by simp [hq]))

theorem prod_getD (l : List Nat) : ∏ a : Fin l.length, l.getD a 0 = l.prod := by
  rw [← List.prod_ofFn]
  congr 1
  apply List.ext_getElem
  · simp
  · intro k hk hk'
    simp

/-- The prime factors are dealt out to the axes. -/
theorem propose_lists (R n : Nat) (hR : 0 < R) (hR' : R < 2 ^ 32) (h0 : 0 < n) (hb : n < 2147395600) :
    ∃ lists : List (List Nat), proposeBlockDecomposition R n = .ok (fun a => (lists.map List.prod).getD a 0) ∧ lists.length = R
      ∧ lists.flatten.prod = n ∧ (1 < n → ∀ p ∈ lists.flatten, p.Prime) ∧ ∀ l ∈ lists, ∀ l' ∈ lists, l.length ≤ l'.length + 1 := by
  obtain ⟨l, h1, h2, h3, h4⟩ := prime_factors_partial n h0 hb
  have hlen : l.length < 2 ^ 31 := by
    by_cases hn : n = 1
    · subst hn
      have : primeFactors 1 = .ok [1] := by decide +kernel
      rw [this] at h1
      injection h1 with h1
      subst h1; simp
    · have := length_le_prod l fun p hp => (h3 (by omega) p hp).two_le
      omega
  have hc : count (fun _ : Fin 1 => l.length) = l.length := by simp [count]
  have hA : ∃ A, ofList l = .ok A ∧ Denotes A (fun _ => l.length) (fun i => l.getD (i 0) 0) := by
    refine ofBuffer_denotes (by rw [hc]; exact hlen) hc.symm fun i hi => ?_
    have hi0 : i 0 < l.length := hi 0
    have : off (fun _ : Fin 1 => l.length) i = i 0 := by simp [off, count]
    rw [this, List.getD_eq_getElem?_getD, List.getElem?_eq_getElem hi0]
    rfl
  obtain ⟨A, hA, hd⟩ := hA
  have hmul : R * l.length < 2 ^ 64 := by
    calc R * l.length ≤ 2 ^ 32 * l.length := Nat.mul_le_mul_right _ (le_of_lt hR')
      _ < 2 ^ 32 * 2 ^ 31 := Nat.mul_lt_mul_of_pos_left hlen (by norm_num)
      _ < 2 ^ 64 := by norm_num
  obtain ⟨groups, lists, g1, g2, g3, g4, g5⟩ := divvy_partition A _ _ hd R hR hlen hmul (by omega)
  have hflat : lists.flatten = l := by
    rw [elements_rank_one hd (by omega)] at g4
    rw [← Outcome.ok.inj g4]
    clear g4
    apply List.ext_getElem
    · simp
    · intro k hk hk'
      simp only [List.length_map, List.length_range] at hk
      simp [hk]
  have hcol : collect (fun g => (elements g).map fun l => l.foldl (· * ·) 1) groups = .ok (lists.map List.prod) := by
    clear g1 g2 g4 g5 hflat
    induction g3 with
    | nil => rfl
    | cons h _ ih =>
      rw [collect, h, Outcome.map_ok, Outcome.bind_ok, ih, Outcome.bind_ok, foldl_mul_eq_prod]
      rfl
  have hll : lists.length = R := by rw [← g3.length_eq, g2]
  refine ⟨lists, by
    unfold proposeBlockDecomposition
    rw [h1, Outcome.bind_ok, hA, Outcome.bind_ok, g1, Outcome.bind_ok, hcol, Outcome.map_ok], hll, by rw [hflat, h2], ?_, g5⟩
  rw [hflat]
  exact h3

/-- The proposed block decomposition has as many blocks as there are processes. -/
theorem propose_partial (R n : Nat) (hR : 0 < R) (hR' : R < 2 ^ 32) (h0 : 0 < n) (hb : n < 2147395600) :
    ∃ r : Ix R, proposeBlockDecomposition R n = .ok r ∧ count r = n := by
  obtain ⟨lists, e, hll, hprod, _⟩ := propose_lists R n hR hR' h0 hb
  refine ⟨_, e, ?_⟩
  unfold count
  rw [← hprod, List.prod_flatten]
  subst hll
  have := prod_getD (lists.map List.prod)
  rw [← this]
  exact Fintype.prod_equiv (finCongr (by simp)) _ _ fun _ => rfl

example : ∃ r : Ix 3, proposeBlockDecomposition 3 96 = .ok r ∧ count r = 96 :=
  propose_partial 3 96 (by decide) (by decide) (by decide) (by decide)

/-- C78, what holds: if the number of processes is a power of a prime, then no other way to write it as a product has a smaller
difference between its largest and its smallest factor. -/
theorem propose_even_partial (R p k : Nat) (hR : 0 < R) (hR' : R < 2 ^ 32) (hp : p.Prime) (hb : p ^ k < 2147395600) :
    ∃ r : Ix R, proposeBlockDecomposition R (p ^ k) = .ok r ∧ ∏ a, r a = p ^ k
      ∧ ∀ s : Ix R, ∏ a, s a = p ^ k → ∃ a b, ∀ c d, (r c : Int) - r d ≤ s a - s b := by
  obtain ⟨r0, e0, hc0⟩ := propose_partial R (p ^ k) hR hR' (pow_pos hp.pos _) hb
  obtain ⟨lists, e, hll, hprod, hpr, hlen⟩ := propose_lists R (p ^ k) hR hR' (pow_pos hp.pos _) hb
  rw [e] at e0
  injection e0 with e0
  refine ⟨_, e, by rw [e0]; exact hc0, fun s hs => ?_⟩
  rcases Nat.eq_zero_or_pos k with rfl | hk
  · have h1 : ∀ a, r0 a = 1 := by
      intro a
      have : r0 a ∣ 1 := by
        have h := Finset.dvd_prod_of_mem r0 (Finset.mem_univ a)
        rw [show ∏ a, r0 a = p ^ 0 from hc0, pow_zero] at h
        exact h
      exact Nat.dvd_one.1 this
    refine ⟨⟨0, hR⟩, ⟨0, hR⟩, fun c d => ?_⟩
    have h2 : ∀ c : Fin R, (lists.map List.prod).getD c 0 = 1 := fun c => (congrFun e0 c).trans (h1 c)
    rw [h2 c, h2 d]
    simp
  · have hgt : 1 < p ^ k := Nat.one_lt_pow hk.ne' hp.one_lt
    have hall : ∀ q ∈ lists.flatten, q = p := fun q hq => by
      have h1 : q ∣ p ^ k := by rw [← hprod]; exact List.dvd_prod hq
      exact (Nat.prime_dvd_prime_iff_eq (hpr hgt q hq) hp).1 ((hpr hgt q hq).dvd_of_dvd_pow h1)
    have hlp : ∀ l ∈ lists, l.prod = p ^ l.length := fun l hl =>
      List.prod_eq_pow_card l p fun q hq => hall q (List.mem_flatten.2 ⟨l, hl, hq⟩)
    have hat : ∀ a : Fin R, lists[a]'(by omega) ∈ lists := fun a => List.getElem_mem _
    have hr : ∀ a : Fin R, (lists.map List.prod).getD a 0 = p ^ (lists[a]'(by omega)).length := by
      intro a
      rw [List.getD_eq_getElem?_getD, List.getElem?_map, List.getElem?_eq_getElem (by omega)]
      exact hlp _ (hat a)
    have hex : ∀ f : Fin R → Nat, ∏ a, p ^ f a = p ^ k → ∑ a, f a = k := by
      intro f hf
      rw [Finset.prod_pow_eq_pow_sum] at hf
      exact Nat.pow_right_injective hp.two_le hf
    have he : ∑ a : Fin R, (lists[a]'(by omega)).length = k := by
      refine hex _ ?_
      rw [← show ∏ a, r0 a = p ^ k from hc0, ← e0]
      exact Finset.prod_congr rfl fun a _ => (hr a).symm
    have hf : ∀ a, ∃ f, s a = p ^ f := fun a => by
      have : s a ∣ p ^ k := by rw [← hs]; exact Finset.dvd_prod_of_mem s (Finset.mem_univ a)
      obtain ⟨f, _, hf⟩ := (Nat.dvd_prime_pow hp).1 this
      exact ⟨f, hf⟩
    choose f hf using hf
    have hfk : ∑ a, f a = k := hex f (by rw [← hs]; exact Finset.prod_congr rfl fun a _ => (hf a).symm)
    -- the smallest number of factors on an axis
    have : Nonempty (Fin R) := ⟨⟨0, hR⟩⟩
    obtain ⟨m, hm⟩ := Finite.exists_min fun a : Fin R => (lists[a]'(by omega)).length
    by_cases heq : ∀ a : Fin R, (lists[a]'(by omega)).length = (lists[m]'(by omega)).length
    · refine ⟨m, m, fun c d => ?_⟩
      rw [hr, hr, heq c, heq d]
      simp
    · push Not at heq
      obtain ⟨t, ht⟩ := heq
      have ht' : (lists[m]'(by omega)).length < (lists[t]'(by omega)).length := lt_of_le_of_ne (hm t) (Ne.symm ht)
      have hup : ∀ a : Fin R, (lists[a]'(by omega)).length ≤ (lists[m]'(by omega)).length + 1 := fun a => hlen _ (hat a) _ (hat m)
      obtain ⟨a, ha⟩ : ∃ a, (lists[m]'(by omega)).length + 1 ≤ f a := by
        by_contra hcon
        push Not at hcon
        have h1 : ∑ a, f a < ∑ a : Fin R, (lists[a]'(by omega)).length :=
          Finset.sum_lt_sum (fun a _ => by have := hcon a; have := hm a; omega)
            ⟨t, Finset.mem_univ t, by have := hcon t; omega⟩
        omega
      obtain ⟨b, hb'⟩ : ∃ b, f b ≤ (lists[m]'(by omega)).length := by
        by_contra hcon
        push Not at hcon
        have h1 : ∑ a : Fin R, (lists[a]'(by omega)).length < ∑ a, f a :=
          Finset.sum_lt_sum (fun a _ => by have := hcon a; have := hup a; omega)
            ⟨m, Finset.mem_univ m, by have := hcon m; omega⟩
        omega
      refine ⟨a, b, fun c d => ?_⟩
      rw [hr, hr, hf, hf]
      have h1 : p ^ (lists[c]'(by omega)).length ≤ p ^ f a := Nat.pow_le_pow_right hp.pos ((hup c).trans ha)
      have h2 : p ^ f b ≤ p ^ (lists[d]'(by omega)).length := Nat.pow_le_pow_right hp.pos (hb'.trans (hm d))
      push_cast
      have h1' : (p : Int) ^ (lists[c]'(by omega)).length ≤ (p : Int) ^ f a := by exact_mod_cast h1
      have h2' : (p : Int) ^ f b ≤ (p : Int) ^ (lists[d]'(by omega)).length := by exact_mod_cast h2
      exact sub_le_sub h1' h2'

example : proposeBlockDecomposition 3 32 = .ok ![2, 4, 4] := by decide +kernel

/-- C78, VIOLATION: the proposal for twelve processes in two dimensions is 2 x 6, although 3 x 4 is more even. -/
theorem propose_not_even : proposeBlockDecomposition 2 12 = .ok ![2, 6] ∧ 3 * 4 = 12 ∧ 4 - 3 < 6 - 2 :=
  ⟨by decide +kernel, rfl, by decide⟩

/-! ## C28 block regions -/

theorem volume_rank_one {s : Ix 1} (h : s 0 < 2 ^ 31) : volume s = s 0 := by
  have : count s = s 0 := by simp [count]
  rw [volume_small (by omega), this]

/-- The blocks on one axis. -/
theorem axisBlocks_spec (g b : Nat) (hg : g < 2 ^ 31) (hb0 : 0 < b) (hb : b < 2 ^ 32) :
    (b ≤ g → axisBlocks g b = .ok ((List.range b).map fun n => (n * g / b, (n + 1) * g / b - n * g / b))) ∧
    (g < b → axisBlocks g b = .throws .logicError) := by
  have hmul : b * g < 2 ^ 64 := by
    calc b * g ≤ 2 ^ 32 * g := Nat.mul_le_mul_right _ (le_of_lt hb)
      _ < 2 ^ 32 * 2 ^ 31 := Nat.mul_lt_mul_of_pos_left hg (by norm_num)
      _ < 2 ^ 64 := by norm_num
  have hd : Denotes (arange g) (fun _ => g) (fun i => i 0) := ⟨rfl, fun _ _ => rfl⟩
  have hdiv : ∀ n, n < b → ∃ G, (divvy b (arange g)).get (fun _ => n) = .ok G ∧
      Denotes G (fun _ => (n + 1) * g / b - n * g / b) (fun i => n * g / b + i 0) :=
    fun n hn => divvy_denotes (arange g) _ _ hd b hb0 hg hmul n hn
  have : Nonempty (Arr 1 Nat) := ⟨arange 0⟩
  choose! G hG using hdiv
  have hdd : Denotes (divvy b (arange g)) (fun _ => b) (fun i => G (i 0)) :=
    ⟨rfl, fun i hi => by
      have : i = fun _ => i 0 := by funext a; rw [Fin.fin_one_eq_zero a]
      rw [this]; exact (hG _ (hi 0)).1⟩
  have hel := elements_rank_one hdd (by omega)
  have hbd : ∀ n, (n + 1) * g / b - n * g / b < 2 ^ 31 ∨ g = 2 ^ 31 - 1 ∧ b = 1 := by
    intro n
    have h1 := group_bounds n g b hb0
    have h2 := Nat.div_le_self g b
    by_cases hb1 : b = 1
    · subst hb1
      left
      rw [Nat.div_one, Nat.div_one, Nat.add_mul]; omega
    · left
      have : g / b ≤ g / 2 := Nat.div_le_div_left (by omega) (by omega)
      omega
  have hbd : ∀ n, n < b → (n + 1) * g / b - n * g / b < 2 ^ 31 := by
    intro n hn
    rcases hbd n with h | ⟨h1, rfl⟩
    · exact h
    · rw [Nat.div_one, Nat.div_one, Nat.add_mul]; omega
  have hval : ∀ n, n < b → volume (G n).shape = (n + 1) * g / b - n * g / b := by
    intro n hn
    rw [(hG n hn).2.1, volume_rank_one (hbd n hn)]
  constructor
  · intro hle
    unfold axisBlocks
    rw [hel, Outcome.bind_ok]
    have := collect_ok (fun G : Arr 1 Nat => if volume G.shape = 0 then Outcome.throws .logicError
      else (G.get (fun _ => 0)).map fun start => (start, volume G.shape))
      (fun G => (((G.get (fun _ => 0)).map fun start => (start, volume G.shape)) |> fun o => match o with
        | .ok v => v
        | _ => (0, 0))) ((List.range b).map G) (by
        intro H hH
        rw [List.mem_map] at hH
        obtain ⟨n, hn, rfl⟩ := hH
        rw [List.mem_range] at hn
        have hpos : 0 < (n + 1) * g / b - n * g / b := by
          have := (group_bounds n g b hb0).2.1
          have : 1 ≤ g / b := (Nat.one_le_div_iff hb0).2 hle
          omega
        rw [hval n hn, if_neg (by omega), (hG n hn).2.2 (fun _ => 0) (fun _ => hpos)]
        rfl)
    simp only at this ⊢
    rw [this, List.map_map]
    congr 1
    apply List.map_congr_left
    intro n hn
    rw [List.mem_range] at hn
    have hpos : 0 < (n + 1) * g / b - n * g / b := by
      have := (group_bounds n g b hb0).2.1
      have : 1 ≤ g / b := (Nat.one_le_div_iff hb0).2 hle
      omega
    simp only [Function.comp]
    rw [hval n hn, (hG n hn).2.2 (fun _ => 0) (fun _ => hpos)]
    rfl
  · intro hlt
    unfold axisBlocks
    rw [hel, Outcome.bind_ok]
    obtain ⟨b', rfl⟩ : ∃ b', b = b' + 1 := ⟨b - 1, by omega⟩
    rw [List.range_succ_eq_map, List.map_cons, collect]
    have h0 : volume (G 0).shape = 0 := by
      rw [hval 0 hb0]
      simp only [Nat.zero_mul, Nat.zero_div, Nat.zero_add, Nat.one_mul, Nat.sub_zero]
      exact Nat.div_eq_of_lt hlt
    simp only
    rw [if_pos h0]
    rfl

theorem collect_throws {β : Type} (f : ι → Outcome β) (e : Exn) (l : List ι)
    (h : ∀ x ∈ l, (∃ y, f x = .ok y) ∨ f x = .throws e) (hx : ∃ x ∈ l, f x = .throws e) :
    collect f l = .throws e := by
  induction l with
  | nil => simp at hx
  | cons x l ih =>
    rw [collect]
    rcases h x (by simp) with ⟨y, hy⟩ | hy
    · rw [hy, Outcome.bind_ok, ih (fun z hz => h z (by simp [hz]))]
      · rfl
      · obtain ⟨z, hz, hz'⟩ := hx
        rcases List.mem_cons.1 hz with rfl | hz
        · rw [hy] at hz'; cases hz'
        · exact ⟨z, hz, hz'⟩
    · rw [hy]; rfl

/-- The array of block regions: with at most as many blocks as cells on every axis, every cell of the domain is in
exactly one of the regions, no region is empty or leaves the domain, and the sizes on an axis differ by at most
one; otherwise an exception. -/
theorem block_regions (gs bs : Ix R) (hg : ∀ a, gs a < 2 ^ 31) (hb0 : ∀ a, 0 < bs a) (hb : ∀ a, bs a < 2 ^ 32) :
    ((∀ a, bs a ≤ gs a) → ∃ B blk, createAccessPatternArray gs bs = .ok B ∧ Denotes B bs blk ∧
      (∀ i, InShape gs i → ∃ n, (InShape bs n ∧ InRegion (blk n) i) ∧
        ∀ m, InShape bs m → InRegion (blk m) i → m = n) ∧
      (∀ n, InShape bs n → Regular (blk n) ∧ ∀ i, InRegion (blk n) i → InShape gs i) ∧
      (∀ m n a, InShape bs m → InShape bs n → (blk m).shape a ≤ (blk n).shape a + 1)) ∧
    ((∃ a, gs a < bs a) → createAccessPatternArray gs bs = .throws .logicError) := by
  constructor
  · intro hle
    have hcol := collect_ok (fun a => axisBlocks (gs a) (bs a))
      (fun a => (List.range (bs a)).map fun n => (n * gs a / bs a, (n + 1) * gs a / bs a - n * gs a / bs a))
      (List.finRange R) (fun a _ => (axisBlocks_spec (gs a) (bs a) (hg a) (hb0 a) (hb a)).1 (hle a))
    set blk : Ix R → AccessPattern R := fun n =>
      ⟨fun a => n a * gs a / bs a, fun a => (n a + 1) * gs a / bs a, fun _ => 1⟩ with hblk
    have hcut : ∀ a n, n < bs a → (n + 1) * gs a / bs a ≤ gs a := by
      intro a n hn
      have := Nat.div_le_div_right (c := bs a) (Nat.mul_le_mul_right (gs a) (show n + 1 ≤ bs a from hn))
      rwa [Nat.mul_div_cancel_left _ (hb0 a)] at this
    have hreg : ∀ n, InShape bs n → Regular (blk n) := by
      intro n hn a
      have h1 := (group_bounds (n a) (gs a) (bs a) (hb0 a)).2.1
      have h2 : 1 ≤ gs a / bs a := (Nat.one_le_div_iff (hb0 a)).2 (hle a)
      have h3 := hcut a (n a) (hn a)
      have h4 := hg a
      have e1 : (blk n).start a = n a * gs a / bs a := rfl
      have e2 : (blk n).final a = (n a + 1) * gs a / bs a := rfl
      have e3 : (blk n).jumps a = 1 := rfl
      rw [e1, e2, e3]
      omega
    refine ⟨_, blk, by unfold createAccessPatternArray; rw [hcol, Outcome.map_ok], ⟨rfl, ?_⟩, ?_, ?_, ?_⟩
    · intro n hn
      rw [(bounds_check _ n).2.1 hn]
      simp only
      congr 1
      have hget : ∀ a : Fin R, (((List.finRange R).map fun a => (List.range (bs a)).map fun n =>
          (n * gs a / bs a, (n + 1) * gs a / bs a - n * gs a / bs a)).getD a []).getD (n a) (0, 0) =
          (n a * gs a / bs a, (n a + 1) * gs a / bs a - n a * gs a / bs a) := by
        intro a
        have hna := hn a
        simp [List.getD_eq_getElem?_getD, hna]
      simp only [hget, hblk]
      congr 1
      funext a
      have h1 := (group_bounds (n a) (gs a) (bs a) (hb0 a)).1
      have h2 := hcut a (n a) (hn a)
      have h3 := hg a
      rw [w_eq (by omega)]
      omega
    · intro i hi
      have h1 : ∀ a, ∃ n < bs a, n * gs a / bs a ≤ i a ∧ i a < (n + 1) * gs a / bs a := by
        intro a
        exact find_cut (fun n => n * gs a / bs a) (by simp) (i a) (bs a)
          (by simp only [Nat.mul_div_cancel_left _ (hb0 a)]; exact hi a)
      choose n hn1 hn2 hn3 using h1
      refine ⟨n, ⟨hn1, fun a => ⟨i a - n a * gs a / bs a, ?_, hn3 a⟩⟩, fun m hm hr => ?_⟩
      · have := hn2 a
        simp only [hblk]
        omega
      · funext a
        obtain ⟨k, hk, hlt⟩ := hr a
        simp only [hblk] at hk hlt
        exact cut_unique (fun n => n * gs a / bs a) (fun k => (group_bounds k (gs a) (bs a) (hb0 a)).1) (i a) (m a)
          (n a) (by omega) hlt (hn2 a) (hn3 a)
    · intro n hn
      refine ⟨hreg n hn, fun i hi a => ?_⟩
      obtain ⟨_, _, hlt⟩ := hi a
      exact lt_of_lt_of_le hlt (hcut a (n a) (hn a))
    · intro m n a hm hn
      rw [AccessPattern.shape_eq (hreg m hm) a, AccessPattern.shape_eq (hreg n hn) a]
      unfold AccessPattern.len
      simp only [hblk, Nat.div_one]
      have h1 := group_bounds (m a) (gs a) (bs a) (hb0 a)
      have h2 := group_bounds (n a) (gs a) (bs a) (hb0 a)
      have h3 : 1 ≤ gs a / bs a := (Nat.one_le_div_iff (hb0 a)).2 (hle a)
      omega
  · rintro ⟨a, ha⟩
    unfold createAccessPatternArray
    rw [collect_throws _ .logicError _ (fun b _ => ?_) ⟨a, List.mem_finRange a,
      (axisBlocks_spec (gs a) (bs a) (hg a) (hb0 a) (hb a)).2 ha⟩]
    · rfl
    · rcases Nat.lt_or_ge (gs b) (bs b) with h | h
      · exact Or.inr ((axisBlocks_spec (gs b) (bs b) (hg b) (hb0 b) (hb b)).2 h)
      · exact Or.inl ⟨_, (axisBlocks_spec (gs b) (bs b) (hg b) (hb0 b) (hb b)).1 h⟩

/-- Twelve processes and a domain of 10 x 7 cells meet the hypotheses. -/
example : (0 < 12 ∧ 12 < 2147395600) ∧ (∀ a, (![10, 7] : Ix 2) a < 2 ^ 31) ∧ (∀ a, 0 < (![2, 6] : Ix 2) a) ∧
    (∀ a, (![2, 6] : Ix 2) a ≤ (![10, 7] : Ix 2) a) ∧ ∃ a, (![10, 5] : Ix 2) a < (![2, 6] : Ix 2) a := by
  decide

end Verif.Par
