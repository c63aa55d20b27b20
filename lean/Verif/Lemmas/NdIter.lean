import Verif.Lemmas.NdArray
import Mathlib.Data.List.Nodup

/-!
# Lemmas about iteration over access patterns
-/

namespace Verif.Nd
open Verif

variable {R : Nat} {α β γ : Type}

namespace AccessPattern

/-- The successive indexes from `i` on. -/
inductive Trail (p : AccessPattern R) : Ix R → List (Ix R) → Prop
  | last (i) (h : p.succ i = none) : Trail p i [i]
  | next (i j l) (h : p.succ i = some j) (t : Trail p j l) : Trail p i (i :: l)

theorem lt_len {p : AccessPattern R} {a : Fin R} (hs : p.start a < p.final a) (hj : 0 < p.jumps a) (k : Nat) :
    k < p.len a ↔ p.start a + k * p.jumps a < p.final a := by
  unfold len
  rw [Nat.lt_succ_iff, Nat.le_div_iff_mul_le hj]
  omega

theorem len_pos (p : AccessPattern R) (a : Fin R) : 1 ≤ p.len a := Nat.succ_le_succ (Nat.zero_le _)

theorem trail_block {p : AccessPattern (R + 1)} {t : Ix R} {l : List (Ix R)} (x : Nat) (h : Trail p.tail t l) :
    (p.final 0 ≤ x + p.jumps 0 → Trail p (Fin.cons x t) (l.map (Fin.cons x))) ∧
    (x + p.jumps 0 < p.final 0 → ∀ L, Trail p (Fin.cons (x + p.jumps 0) (Fin.tail p.start)) L →
      Trail p (Fin.cons x t) (l.map (Fin.cons x) ++ L)) := by
  induction h with
  | last i hn =>
    constructor
    · intro hx
      refine .last _ ?_
      simp only [succ, Fin.tail_cons, hn, Fin.cons_zero]
      rw [if_neg (by omega)]
    · intro hx L hL
      refine .next _ _ _ ?_ hL
      simp only [succ, Fin.tail_cons, hn, Fin.cons_zero]
      rw [if_pos hx]
  | next i j l hn _ ih =>
    have : p.succ (Fin.cons x i) = some (Fin.cons x j) := by
      simp only [succ, Fin.tail_cons, hn, Fin.cons_zero]
    exact ⟨fun hx => .next _ _ _ this (ih.1 hx), fun hx L hL => .next _ _ _ this (ih.2 hx L hL)⟩

theorem regular_tail {p : AccessPattern (R + 1)} (h : Regular p) : Regular p.tail := fun a => h a.succ

theorem trail_grid (p : AccessPattern R) (h : Regular p) : Trail p p.start (grid p) := by
  induction R with
  | zero =>
    have : (p.start : Ix 0) = Fin.elim0 := by funext a; exact a.elim0
    rw [this]
    exact .last _ rfl
  | succ R ih =>
    have ht := ih p.tail (regular_tail h)
    obtain ⟨hs, hj, _⟩ := h 0
    have key : ∀ m k, k + (m + 1) = p.len 0 →
        Trail p (Fin.cons (p.start 0 + k * p.jumps 0) (Fin.tail p.start))
          ((List.range' k (m + 1)).flatMap fun k => (grid p.tail).map (Fin.cons (p.start 0 + k * p.jumps 0))) := by
      intro m
      induction m with
      | zero =>
        intro k hk
        simp only [List.range'_one, List.flatMap_cons, List.flatMap_nil, List.append_nil, Nat.zero_add]
        refine (trail_block _ ht).1 ?_
        have := (lt_len hs hj (k + 1)).not.1 (by omega)
        rw [Nat.add_mul, Nat.one_mul] at this
        omega
      | succ m ihm =>
        intro k hk
        rw [List.range'_succ, List.flatMap_cons]
        have h1 := (lt_len hs hj (k + 1)).1 (by omega)
        have := ihm (k + 1) (by omega)
        rw [Nat.add_mul, Nat.one_mul] at this h1
        refine (trail_block _ ht).2 (by omega) _ ?_
        rw [← Nat.add_assoc] at this
        exact this
    have := key (p.len 0 - 1) 0 (by have := p.len_pos 0; omega)
    rw [show p.len 0 - 1 + 1 = p.len 0 by have := p.len_pos 0; omega] at this
    unfold grid
    rw [List.range_eq_range']
    convert this using 1
    simp only [Nat.zero_mul, Nat.add_zero, Fin.cons_self_tail]

theorem mem_grid {p : AccessPattern R} (h : Regular p) {i : Ix R} : i ∈ grid p ↔ InRegion p i := by
  induction R with
  | zero =>
    have : i = Fin.elim0 := by funext a; exact a.elim0
    simp [grid, this, InRegion]
  | succ R ih =>
    obtain ⟨hs, hj, _⟩ := h 0
    unfold grid
    rw [List.mem_flatMap]
    unfold InRegion
    rw [Fin.forall_fin_succ]
    constructor
    · rintro ⟨k, hk, hi⟩
      obtain ⟨t, ht, rfl⟩ := List.mem_map.1 hi
      refine ⟨⟨k, by simp, ?_⟩, ?_⟩
      · simp only [Fin.cons_zero]
        exact (lt_len hs hj k).1 (List.mem_range.1 hk)
      · have := (ih (regular_tail h)).1 ht
        intro a
        obtain ⟨k, h1, h2⟩ := this a
        exact ⟨k, by rw [Fin.cons_succ]; exact h1, by rw [Fin.cons_succ]; exact h2⟩
    · rintro ⟨⟨k, h1, h2⟩, h3⟩
      refine ⟨k, List.mem_range.2 ((lt_len hs hj k).2 (by omega)), List.mem_map.2 ⟨Fin.tail i, ?_, ?_⟩⟩
      · exact (ih (regular_tail h)).2 fun a => h3 a
      · rw [← h1, Fin.cons_self_tail]

theorem sorted_grid {p : AccessPattern R} (h : Regular p) : (grid p).Pairwise RowMajor := by
  induction R with
  | zero => simp [grid]
  | succ R ih =>
    obtain ⟨hs, hj, _⟩ := h 0
    unfold grid
    rw [List.pairwise_flatMap]
    constructor
    · intro k _
      rw [List.pairwise_map]
      apply (ih (regular_tail h)).imp
      rintro i j ⟨a, h1, h2⟩
      refine ⟨a.succ, ?_, by simpa using h2⟩
      intro b
      refine Fin.cases ?_ (fun b => ?_) b
      · simp
      · intro hb
        simpa using h1 b (by simpa using hb)
    · apply List.Pairwise.imp _ List.pairwise_lt_range
      intro k m hkm i hi j hj'
      obtain ⟨i', _, rfl⟩ := List.mem_map.1 hi
      obtain ⟨j', _, rfl⟩ := List.mem_map.1 hj'
      refine ⟨0, fun b hb => absurd hb (by simp), ?_⟩
      simp only [Fin.cons_zero]
      have := Nat.mul_lt_mul_of_pos_right hkm hj
      omega

theorem length_grid (p : AccessPattern R) : (grid p).length = ∏ a, p.len a := by
  induction R with
  | zero => simp [grid]
  | succ R ih =>
    unfold grid
    rw [List.length_flatMap, Fin.prod_univ_succ]
    simp only [List.length_map, ih]
    rw [List.map_const', List.sum_replicate, List.length_range]
    rfl

theorem trail_visit {p : AccessPattern (R + 1)} {i : Ix (R + 1)} {l : List (Ix (R + 1))} (ht : Trail p i l)
    (hl : ∀ i ∈ l, i ≠ p.final ∧ ∀ a, i a + p.jumps a < 2 ^ 64) (fuel : Nat) (hf : l.length < fuel) :
    p.visit fuel i = .ok l := by
  induction ht generalizing fuel with
  | last i h =>
    obtain ⟨h1, h2⟩ := hl i (by simp)
    simp only [List.length_singleton] at hf
    obtain ⟨f, rfl⟩ : ∃ f, fuel = f + 2 := ⟨fuel - 2, by omega⟩
    rw [visit, if_neg h1, advance_eq p i h2, h, Option.getD_none, visit, if_pos rfl]
    rfl
  | next i j l h _ ih =>
    obtain ⟨h1, h2⟩ := hl i (by simp)
    simp only [List.length_cons] at hf
    obtain ⟨f, rfl⟩ : ∃ f, fuel = f + 1 := ⟨fuel - 1, by omega⟩
    rw [visit, if_neg h1, advance_eq p i h2, h, Option.getD_some,
      ih (fun i hi => hl i (by simp [hi])) f (by omega)]
    rfl

theorem indexes_eq (p : AccessPattern (R + 1)) (h : Regular p) : p.indexes = .ok (grid p) := by
  unfold indexes
  apply trail_visit (trail_grid p h)
  · intro i hi
    have := (mem_grid h).1 hi
    constructor
    · rintro rfl
      obtain ⟨k, _, h2⟩ := this 0
      omega
    · intro a
      obtain ⟨k, _, h2⟩ := this a
      have := (h a).2.2
      omega
  · rw [length_grid]
    calc ∏ a, p.len a ≤ ∏ _a : Fin (R + 1), 2 ^ 64 := by
          apply Finset.prod_le_prod'
          intro a _
          obtain ⟨h1, h2, h3⟩ := h a
          unfold len
          have := Nat.div_le_self (p.final a - p.start a - 1) (p.jumps a)
          omega
      _ = 2 ^ (64 * (R + 1)) := by
          rw [Finset.prod_const, Finset.card_univ, Fintype.card_fin, ← pow_mul]
      _ < _ := Nat.lt_succ_self _

theorem shape_eq {p : AccessPattern R} (h : Regular p) (a : Fin R) : p.shape a = p.len a := by
  obtain ⟨h1, h2, h3⟩ := h a
  unfold shape len
  have e : wsub (p.final a) (p.start a) = p.final a - p.start a := wsub_eq (by omega) (by omega)
  rw [e, wsub_eq (by omega) (by omega)]
  apply w_eq
  have := Nat.div_le_self (p.final a - p.start a - 1) (p.jumps a)
  omega

end AccessPattern

theorem regular_make {s : Ix R} (hp : ∀ a, 0 < s a) (hb : ∀ a, s a < 2 ^ 64) : Regular (makeAccessPattern s) :=
  fun a => ⟨hp a, Nat.one_pos, by have := hb a; simp only [makeAccessPattern]; omega⟩

theorem inRegion_make {s i : Ix R} : InRegion (makeAccessPattern s) i ↔ InShape s i := by
  unfold InRegion InShape makeAccessPattern
  refine forall_congr' fun a => ⟨fun ⟨k, _, h⟩ => h, fun h => ⟨i a, by simp, h⟩⟩

theorem le_count {s : Ix R} (hp : ∀ a, 0 < s a) (a : Fin R) : s a ≤ count s := by
  unfold count
  exact Finset.single_le_prod' (f := s) (fun b _ => hp b) (Finset.mem_univ a)

/-! ### evaluation to memory -/

theorem writeAll_ok {A : Arr R α} {s : Ix R} {f : Ix R → α} (hc : count s < 2 ^ 64) (l : List (Ix R))
    (hl : ∀ i ∈ l, InShape s i ∧ A.get i = .ok (f i)) (buf : List α) (hb : buf.length = count s) :
    ∃ buf', writeAll A (strides s) l buf = .ok buf' ∧ buf'.length = count s ∧
      ∀ i, InShape s i → (i ∈ l → buf'[off s i]? = some (f i)) ∧ (i ∉ l → buf'[off s i]? = buf[off s i]?) := by
  induction l generalizing buf with
  | nil => exact ⟨buf, rfl, hb, fun i _ => ⟨fun h => absurd h (by simp), fun _ => rfl⟩⟩
  | cons j l ih =>
    obtain ⟨hj, hg⟩ := hl j (by simp)
    have hlt := off_lt s j hj
    obtain ⟨buf', h1, h2, h3⟩ := ih (fun i hi => hl i (by simp [hi])) (buf.set (off s j) (f j)) (by simpa using hb)
    refine ⟨buf', ?_, h2, ?_⟩
    · unfold writeAll
      rw [hg, Outcome.bind_ok, computeOffset_off s j hj hc, if_pos (by omega), h1]
    · intro i hi
      obtain ⟨h4, h5⟩ := h3 i hi
      by_cases hil : i ∈ l
      · exact ⟨fun _ => h4 hil, fun h => absurd (List.mem_cons_of_mem _ hil) h⟩
      · by_cases hij : i = j
        · subst hij
          refine ⟨fun _ => ?_, fun h => absurd (List.mem_cons_self) h⟩
          rw [h5 hil, List.getElem?_set_self (by omega)]
        · refine ⟨fun h => ?_, fun _ => ?_⟩
          · rcases List.mem_cons.1 h with h | h
            · exact absurd h hij
            · exact absurd h hil
          · rw [h5 hil, List.getElem?_set_ne]
            intro e
            exact hij (off_inj s i j hi hj e.symm)

theorem ofBuffer_denotes {s : Ix R} {f : Ix R → α} {buf : List α} (hc : count s < 2 ^ 31)
    (hb : buf.length = count s) (hv : ∀ i, InShape s i → buf[off s i]? = some (f i)) :
    ∃ B, ofBuffer s buf = .ok B ∧ Denotes B s f := by
  unfold ofBuffer
  rw [volume_small hc, if_neg (by simp [hb])]
  refine ⟨_, rfl, rfl, ?_⟩
  intro i hi
  simp only
  rw [computeOffset_off s i hi (by omega), hv i hi]

theorem indexes_zero {s : Ix 1} (h : s 0 = 0) : (makeAccessPattern s).indexes = .ok [] := by
  unfold AccessPattern.indexes
  rw [AccessPattern.visit, if_pos]
  funext a
  obtain rfl : a = 0 := by omega
  simp [makeAccessPattern, h]

/-- The indexes visited in a shape that is not an empty shape of rank two or more. -/
theorem indexes_shape {s : Ix (R + 1)} (hp : (∀ a, 0 < s a) ∨ R = 0) (hb : ∀ a, s a < 2 ^ 64) :
    ∃ l, (makeAccessPattern s).indexes = .ok l ∧ ∀ i, i ∈ l ↔ InShape s i := by
  by_cases h : ∀ a, 0 < s a
  · refine ⟨_, AccessPattern.indexes_eq _ (regular_make h hb), fun i => ?_⟩
    rw [AccessPattern.mem_grid (regular_make h hb), inRegion_make]
  · rcases hp with hp | rfl
    · exact absurd hp h
    · have h0 : s 0 = 0 := by
        by_contra hn
        apply h
        intro a
        obtain rfl : a = 0 := by omega
        omega
      refine ⟨[], indexes_zero h0, fun i => ⟨fun h => absurd h (by simp), fun h => ?_⟩⟩
      have := h 0
      omega

theorem evaluate_ok [Inhabited α] {A : Arr (R + 1) α} {s : Ix (R + 1)} {f : Ix (R + 1) → α} (hA : Denotes A s f)
    (hp : (∀ a, 0 < s a) ∨ R = 0) (hc : count s < 2 ^ 31) : ∃ B, evaluate A = .ok B ∧ Denotes B s f := by
  obtain ⟨rfl, hg⟩ := hA
  have hb : ∀ a, A.shape a < 2 ^ 64 := by
    intro a
    rcases hp with hp | rfl
    · have := le_count hp a; omega
    · obtain rfl : a = 0 := by omega
      have : count A.shape = A.shape 0 := by simp [count]
      omega
  obtain ⟨l, hl, hm⟩ := indexes_shape hp hb
  obtain ⟨buf, h1, h2, h3⟩ := writeAll_ok (A := A) (s := A.shape) (f := f) (by omega) l
    (fun i hi => ⟨(hm i).1 hi, hg i ((hm i).1 hi)⟩) (List.replicate (volume A.shape) default)
    (by rw [List.length_replicate, volume_small hc])
  obtain ⟨B, hB, hd⟩ := ofBuffer_denotes hc h2 (fun i hi => (h3 i hi).1 ((hm i).2 hi))
  refine ⟨B, ?_, hd⟩
  unfold evaluate
  rw [if_neg (by rw [volume_small hc]; omega), hl, Outcome.bind_ok, h1, Outcome.bind_ok, hB]

/-! ### selections -/

theorem mapIndex_eq (p : AccessPattern R) (i : Ix R) (h : ∀ a, p.start a + p.jumps a * i a < 2 ^ 64) :
    p.mapIndex i = fun a => p.start a + p.jumps a * i a := by
  funext a
  unfold AccessPattern.mapIndex
  rw [w_eq (n := p.jumps a * i a) (by have := h a; omega), w_eq (h a)]

theorem len_mul_le {p : AccessPattern R} (h : Regular p) (a : Fin R) :
    p.start a + p.jumps a * p.len a < p.final a + p.jumps a := by
  obtain ⟨h1, h2, h3⟩ := h a
  unfold AccessPattern.len
  have := Nat.mul_div_le (p.final a - p.start a - 1) (p.jumps a)
  rw [Nat.mul_add, Nat.mul_one]
  omega

theorem within_iff {p : AccessPattern R} (h : Regular p) (s : Ix R) :
    p.within s = true ↔ ∀ a, p.start a + p.jumps a * p.len a ≤ s a := by
  unfold AccessPattern.within
  have e : p.shape = p.len := funext fun a => AccessPattern.shape_eq h a
  rw [e, mapIndex_eq p p.len (fun a => by have := len_mul_le h a; have := (h a).2.2; omega),
    mapIndex_eq p (fun _ => 0) (fun a => by have := (h a).2.2; have := (h a).1; omega)]
  simp only [List.all_eq_true, List.mem_finRange, forall_true_left, Bool.and_eq_true, decide_eq_true_eq]
  exact forall_congr' fun a => by
    constructor
    · exact fun h => h.2
    · intro h; exact ⟨by omega, h⟩

theorem jumpsOk_iff {p : AccessPattern R} : p.JumpsOk = true ↔ ∀ a, p.jumps a ≠ 0 := by
  unfold AccessPattern.JumpsOk; simp

end Verif.Nd
