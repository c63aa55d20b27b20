import Verif.Lemmas.Lines
import Verif.Model.Cloud
import Mathlib.Tactic.FinCases

/-!
# The operators on two-dimensional arrays
-/

namespace Verif.Nd

open Verif

variable {α β γ : Type}

theorem pair_eq (i : Ix 2) : i = ![i 0, i 1] := by
  funext a
  fin_cases a <;> rfl

theorem grid_iff {A : Arr 2 α} {m n : Nat} {f : Nat → Nat → α} : Grid A m n f ↔ Denotes A ![m, n] (fun i => f (i 0) (i 1)) := by
  constructor
  · rintro ⟨h1, h2, h3⟩
    refine ⟨?_, fun i hi => ?_⟩
    · rw [pair_eq A.shape, h1, h2]
    · rw [pair_eq i]
      exact h3 _ (hi 0) _ (hi 1)
  · rintro ⟨h1, h2⟩
    refine ⟨by rw [h1]; rfl, by rw [h1]; rfl, fun i hi j hj => h2 ![i, j] ?_⟩
    intro a
    fin_cases a
    · exact hi
    · exact hj

theorem Grid.congr {A : Arr 2 α} {m n m' n' : Nat} {f g : Nat → Nat → α} (h : Grid A m n f) (hm : m = m') (hn : n = n')
    (hf : ∀ i, i < m' → ∀ j, j < n' → f i j = g i j) : Grid A m' n' g := by
  subst hm hn
  exact ⟨h.1, h.2.1, fun i hi j hj => by rw [h.2.2 i hi j hj, hf i hi j hj]⟩

theorem Grid.of_denotes {A : Arr 2 α} {s : Ix 2} {f : Ix 2 → α} (h : Denotes A s f) : Grid A (s 0) (s 1) (fun i j => f ![i, j]) :=
  grid_iff.mpr ⟨h.1.trans (pair_eq s), fun i hi => by
    rw [h.2 i (fun a => by fin_cases a; exacts [hi 0, hi 1])]
    exact congrArg (fun k => Outcome.ok (f k)) (pair_eq i)⟩

theorem update_fst {m n k : Nat} : Function.update (![m, n] : Ix 2) 0 k = ![k, n] := by
  funext a
  fin_cases a <;> rfl

theorem update_snd {m n k : Nat} : Function.update (![m, n] : Ix 2) 1 k = ![m, k] := by
  funext a
  fin_cases a <;> rfl

theorem Grid.map {A : Arr 2 α} {m n : Nat} {f : Nat → Nat → α} (h : Grid A m n f) (u : α → β) : Grid (A.map u) m n (fun i j => u (f i j)) :=
  grid_iff.mpr ((grid_iff.mp h).map u)

theorem Grid.mapO {A : Arr 2 α} {m n : Nat} {f : Nat → Nat → α} (h : Grid A m n f) {u : α → Outcome β} {g : Nat → Nat → β}
    (hf : ∀ i, i < m → ∀ j, j < n → u (f i j) = .ok (g i j)) : Grid (A.mapO u) m n g := by
  refine ⟨h.1, h.2.1, fun i hi j hj => ?_⟩
  unfold Arr.mapO
  dsimp only
  rw [h.2.2 i hi j hj, Outcome.bind_ok, hf i hi j hj]

theorem Grid.binaryOp {A : Arr 2 α} {B : Arr 2 β} {m n : Nat} {f : Nat → Nat → α} {g : Nat → Nat → β} (hA : Grid A m n f) (hB : Grid B m n g)
    (u : α → β → γ) : ∃ C, Nd.binaryOp u A B = .ok C ∧ Grid C m n (fun i j => u (f i j) (g i j)) := by
  obtain ⟨C, h1, h2⟩ := binaryOp_denotes (grid_iff.mp hA) (grid_iff.mp hB) u
  exact ⟨C, h1, grid_iff.mpr h2⟩

theorem Grid.binaryOpO {A : Arr 2 α} {B : Arr 2 β} {m n : Nat} {f : Nat → Nat → α} {g : Nat → Nat → β} (hA : Grid A m n f) (hB : Grid B m n g)
    {u : α → β → Outcome γ} {x : Nat → Nat → γ} (hf : ∀ i, i < m → ∀ j, j < n → u (f i j) (g i j) = .ok (x i j)) :
    ∃ C, Nd.binaryOpO u A B = .ok C ∧ Grid C m n x := by
  obtain ⟨C, h1, h2⟩ := hA.binaryOp hB Prod.mk
  refine ⟨_, ?_, h2.mapO (u := fun x => u x.1 x.2) hf⟩
  unfold Nd.binaryOpO
  rw [h1, Outcome.map_ok]

theorem pair_lt {m n : Nat} (hm : m < 2 ^ 64) (hn : n < 2 ^ 64) : ∀ b, (![m, n] : Ix 2) b < 2 ^ 64 := by
  intro b
  fin_cases b
  exacts [hm, hn]

theorem Grid.difference0 {K : Type} [AddCommGroup K] {A : Arr 2 K} {m n : Nat} {f : Nat → Nat → K} (h : Grid A (m + 1) n f)
    (hm : m + 1 < 2 ^ 64) (hn : n < 2 ^ 64) : ∃ D, Nd.difference 0 A = .ok D ∧ Grid D m n (fun i j => f (i + 1) j - f i j) := by
  obtain ⟨D, d, h1, h2, h3, _⟩ := difference_partial A _ _ (grid_iff.mp h) (pair_lt hm hn) 0 (Nat.le_add_left 1 m)
  refine ⟨D, h1, (Grid.of_denotes h2).congr rfl rfl fun i _ j _ => ?_⟩
  rw [h3]
  rfl

theorem Grid.difference1 {K : Type} [AddCommGroup K] {A : Arr 2 K} {m n : Nat} {f : Nat → Nat → K} (h : Grid A m (n + 1) f)
    (hm : m < 2 ^ 64) (hn : n + 1 < 2 ^ 64) : ∃ D, Nd.difference 1 A = .ok D ∧ Grid D m n (fun i j => f i (j + 1) - f i j) := by
  obtain ⟨D, d, h1, h2, h3, _⟩ := difference_partial A _ _ (grid_iff.mp h) (pair_lt hm hn) 1 (Nat.le_add_left 1 n)
  refine ⟨D, h1, (Grid.of_denotes h2).congr rfl rfl fun i _ j _ => ?_⟩
  rw [h3]
  rfl

theorem Grid.midpoint0 {K : Type} [Field K] {A : Arr 2 K} {m n : Nat} {f : Nat → Nat → K} (h : Grid A (m + 1) n f)
    (hm : m + 1 < 2 ^ 64) (hn : n < 2 ^ 64) : ∃ D, Nd.midpoint (1 / 2) 0 A = .ok D ∧ Grid D m n (fun i j => (f i j + f (i + 1) j) / 2) := by
  obtain ⟨D, h1, h2⟩ := midpoint_partial A _ _ (grid_iff.mp h) (pair_lt hm hn) 0 (Nat.le_add_left 1 m)
  exact ⟨D, h1, (Grid.of_denotes h2).congr rfl rfl fun i _ j _ => rfl⟩

theorem Grid.midpoint1 {K : Type} [Field K] {A : Arr 2 K} {m n : Nat} {f : Nat → Nat → K} (h : Grid A m (n + 1) f)
    (hm : m < 2 ^ 64) (hn : n + 1 < 2 ^ 64) : ∃ D, Nd.midpoint (1 / 2) 1 A = .ok D ∧ Grid D m n (fun i j => (f i j + f i (j + 1)) / 2) := by
  obtain ⟨D, h1, h2⟩ := midpoint_partial A _ _ (grid_iff.mp h) (pair_lt hm hn) 1 (Nat.le_add_left 1 n)
  exact ⟨D, h1, (Grid.of_denotes h2).congr rfl rfl fun i _ j _ => rfl⟩

theorem Grid.zip2_0 {A : Arr 2 α} {m n : Nat} {f : Nat → Nat → α} (h : Grid A (m + 1) n f) (hm : m + 1 < 2 ^ 64) (hn : n < 2 ^ 64) :
    ∃ D, zipAdjacent2 0 A = .ok D ∧ Grid D m n (fun i j => (f i j, f (i + 1) j)) := by
  obtain ⟨D, h1, h2⟩ := (zip_adjacent_partial A _ _ (grid_iff.mp h) (pair_lt hm hn) 0).1 (Nat.le_add_left 1 m)
  exact ⟨D, h1, (Grid.of_denotes h2).congr rfl rfl fun i _ j _ => rfl⟩

theorem Grid.zip2_1 {A : Arr 2 α} {m n : Nat} {f : Nat → Nat → α} (h : Grid A m (n + 1) f) (hm : m < 2 ^ 64) (hn : n + 1 < 2 ^ 64) :
    ∃ D, zipAdjacent2 1 A = .ok D ∧ Grid D m n (fun i j => (f i j, f i (j + 1))) := by
  obtain ⟨D, h1, h2⟩ := (zip_adjacent_partial A _ _ (grid_iff.mp h) (pair_lt hm hn) 1).1 (Nat.le_add_left 1 n)
  exact ⟨D, h1, (Grid.of_denotes h2).congr rfl rfl fun i _ j _ => rfl⟩

theorem Grid.zip3_0 {A : Arr 2 α} {m n : Nat} {f : Nat → Nat → α} (h : Grid A (m + 2) n f) (hm : m + 2 < 2 ^ 64) (hn : n < 2 ^ 64) :
    ∃ D, zipAdjacent3 0 A = .ok D ∧ Grid D m n (fun i j => (f i j, f (i + 1) j, f (i + 2) j)) := by
  obtain ⟨D, h1, h2⟩ := (zip_adjacent_partial A _ _ (grid_iff.mp h) (pair_lt hm hn) 0).2 (Nat.le_add_left 2 m)
  exact ⟨D, h1, (Grid.of_denotes h2).congr rfl rfl fun i _ j _ => rfl⟩

theorem Grid.zip3_1 {A : Arr 2 α} {m n : Nat} {f : Nat → Nat → α} (h : Grid A m (n + 2) f) (hm : m < 2 ^ 64) (hn : n + 2 < 2 ^ 64) :
    ∃ D, zipAdjacent3 1 A = .ok D ∧ Grid D m n (fun i j => (f i j, f i (j + 1), f i (j + 2))) := by
  obtain ⟨D, h1, h2⟩ := (zip_adjacent_partial A _ _ (grid_iff.mp h) (pair_lt hm hn) 1).2 (Nat.le_add_left 2 n)
  exact ⟨D, h1, (Grid.of_denotes h2).congr rfl rfl fun i _ j _ => rfl⟩

theorem Grid.dropFinal0 {A : Arr 2 α} {m n : Nat} {f : Nat → Nat → α} (h : Grid A (m + 1) n f) (hm : m + 1 < 2 ^ 64) (hn : n < 2 ^ 64) :
    ∃ D, selectAxis 0 0 1 1 true A = .ok D ∧ Grid D m n f := by
  obtain ⟨D, h1, h2⟩ := dropFinal_denotes (grid_iff.mp h) (pair_lt hm hn) 0 1 (Nat.le_add_left 1 m)
  exact ⟨D, h1, (Grid.of_denotes h2).congr rfl rfl fun i _ j _ => rfl⟩

theorem Grid.dropFinal1 {A : Arr 2 α} {m n : Nat} {f : Nat → Nat → α} (h : Grid A m (n + 1) f) (hm : m < 2 ^ 64) (hn : n + 1 < 2 ^ 64) :
    ∃ D, selectAxis 1 0 1 1 true A = .ok D ∧ Grid D m n f := by
  obtain ⟨D, h1, h2⟩ := dropFinal_denotes (grid_iff.mp h) (pair_lt hm hn) 1 1 (Nat.le_add_left 1 n)
  exact ⟨D, h1, (Grid.of_denotes h2).congr rfl rfl fun i _ j _ => rfl⟩

theorem Grid.dropFirst0 {A : Arr 2 α} {m n : Nat} {f : Nat → Nat → α} (h : Grid A (m + 1) n f) (hm : m + 1 < 2 ^ 64) (hn : n < 2 ^ 64) :
    ∃ D, selectAxis 0 1 0 1 true A = .ok D ∧ Grid D m n (fun i j => f (i + 1) j) := by
  obtain ⟨D, h1, h2⟩ := dropFirst_denotes (grid_iff.mp h) (pair_lt hm hn) 0 1 0 (Nat.le_add_left 1 m)
  exact ⟨D, h1, (Grid.of_denotes h2).congr rfl rfl fun i _ j _ => rfl⟩

theorem Grid.dropFirst1 {A : Arr 2 α} {m n : Nat} {f : Nat → Nat → α} (h : Grid A m (n + 1) f) (hm : m < 2 ^ 64) (hn : n + 1 < 2 ^ 64) :
    ∃ D, selectAxis 1 1 0 1 true A = .ok D ∧ Grid D m n (fun i j => f i (j + 1)) := by
  obtain ⟨D, h1, h2⟩ := dropFirst_denotes (grid_iff.mp h) (pair_lt hm hn) 1 1 0 (Nat.le_add_left 1 n)
  exact ⟨D, h1, (Grid.of_denotes h2).congr rfl rfl fun i _ j _ => rfl⟩

theorem Grid.selectFinal0 {A : Arr 2 α} {m n : Nat} {f : Nat → Nat → α} (h : Grid A (m + 1) n f) (hm : m + 1 < 2 ^ 64) (hn : n < 2 ^ 64) :
    ∃ D, Nd.selectFinal 1 0 A = .ok D ∧ Grid D 1 n (fun _ j => f m j) := by
  obtain ⟨D, e, h2⟩ := selectFinal_denotes (grid_iff.mp h) (pair_lt hm hn) 0 1 (Nat.le_add_left 1 m)
  refine ⟨D, e, (Grid.of_denotes h2).congr rfl rfl fun i hi j _ => ?_⟩
  obtain rfl : i = 0 := by omega
  rfl

theorem Grid.concat0 {A B : Arr 2 α} {m l n : Nat} {f g : Nat → Nat → α} (hA : Grid A m n f) (hB : Grid B l n g) (hm : m + l < 2 ^ 64) :
    ∃ D, Nd.concat 0 B A = .ok D ∧ Grid D (m + l) n (fun i j => if i < m then f i j else g (i - m) j) := by
  obtain ⟨D, e, h2⟩ := concat_denotes (grid_iff.mp hA) (grid_iff.mp hB) 0 (fun b hb => by
    fin_cases b
    · exact absurd rfl hb
    · rfl) hm
  exact ⟨D, e, (Grid.of_denotes h2).congr rfl rfl fun i _ j _ => rfl⟩

theorem Grid.extendZeros0 {K : Type} [MulZeroClass K] {A : Arr 2 K} {m n : Nat} {f : Nat → Nat → K} (h : Grid A m n f) (h1 : 1 ≤ m)
    (hm : m + 2 < 2 ^ 64) (hn : n < 2 ^ 64) : ∃ D, extendZeros 0 A = .ok D
      ∧ Grid D (m + 2) n (fun i j => if i = 0 ∨ i = m + 1 then 0 else f (i - 1) j) := by
  obtain ⟨D, e, h2⟩ := (extend_zeros A _ _ (grid_iff.mp h) (pair_lt (by omega) hn) 0).1 h1 hm
  exact ⟨D, e, (Grid.of_denotes h2).congr rfl rfl fun i _ j _ => rfl⟩

theorem Grid.extendZeros1 {K : Type} [MulZeroClass K] {A : Arr 2 K} {m n : Nat} {f : Nat → Nat → K} (h : Grid A m n f) (h1 : 1 ≤ n)
    (hm : m < 2 ^ 64) (hn : n + 2 < 2 ^ 64) : ∃ D, extendZeros 1 A = .ok D
      ∧ Grid D m (n + 2) (fun i j => if j = 0 ∨ j = n + 1 then 0 else f i (j - 1)) := by
  obtain ⟨D, e, h2⟩ := (extend_zeros A _ _ (grid_iff.mp h) (pair_lt hm (by omega)) 1).1 h1 hn
  exact ⟨D, e, (Grid.of_denotes h2).congr rfl rfl fun i _ j _ => rfl⟩

theorem count_pair {m n : Nat} : count (![m, n] : Ix 2) = m * n := by
  unfold count
  rw [Fin.prod_univ_two]
  rfl

theorem Grid.evaluate [Inhabited α] {A : Arr 2 α} {m n : Nat} {f : Nat → Nat → α} (h : Grid A m n f) (hm : 1 ≤ m) (hn : 1 ≤ n)
    (hmn : m * n < 2 ^ 31) : ∃ D, Nd.evaluate A = .ok D ∧ Grid D m n f := by
  obtain ⟨D, e, h2⟩ := evaluate_partial A _ _ (grid_iff.mp h) (Or.inl fun a => by fin_cases a; exacts [hm, hn]) (by rw [count_pair]; exact hmn)
  exact ⟨D, e, grid_iff.mpr h2⟩

theorem total_pair {K : Type} [AddCommMonoid K] {m n : Nat} {f : Nat → Nat → K} :
    total (![m, n] : Ix 2) (fun i => f (i 0) (i 1)) = ∑ i ∈ Finset.range m, ∑ j ∈ Finset.range n, f i j := by
  unfold total
  rw [← Finset.sum_product']
  refine Finset.sum_bij' (fun i _ => (i 0, i 1)) (fun p _ => ![p.1, p.2]) ?_ ?_ ?_ ?_ ?_
  · intro i hi
    rw [Fintype.mem_piFinset] at hi
    exact Finset.mem_product.mpr ⟨hi 0, hi 1⟩
  · intro p hp
    rw [Finset.mem_product] at hp
    rw [Fintype.mem_piFinset]
    intro a
    fin_cases a
    exacts [hp.1, hp.2]
  · intro i _
    exact (pair_eq i).symm
  · intro p _
    rfl
  · intro i _
    rfl

theorem Grid.sum {K : Type} [AddCommMonoid K] {A : Arr 2 K} {m n : Nat} {f : Nat → Nat → K} (h : Grid A m n f) (hm : 1 ≤ m) (hn : 1 ≤ n)
    (hm2 : m < 2 ^ 64) (hn2 : n < 2 ^ 64) : Nd.sum A = .ok (∑ i ∈ Finset.range m, ∑ j ∈ Finset.range n, f i j) := by
  rw [sum_denotes (grid_iff.mp h) (Or.inl fun a => by fin_cases a; exacts [hm, hn]) (pair_lt hm2 hn2), total_pair]

theorem Line.volume {A : Arr 1 α} {n : Nat} {y : Nat → α} (h : Line A n y) (hn : n < 2 ^ 31) : Nd.volume A.shape = n := by
  have hc : count A.shape = n := by
    unfold count
    rw [Fin.prod_univ_one, h.1]
  have h2 : count A.shape < 2 ^ 31 := lt_of_eq_of_lt hc hn
  exact (volume_small h2).trans hc

theorem Line.product {A : Arr 1 α} {B : Arr 1 β} {m n : Nat} {x : Nat → α} {y : Nat → β} (hA : Line A m x) (hB : Line B n y)
    (hm : m < 2 ^ 31) (hn : n < 2 ^ 31) : Grid (cartesianProduct A B) m n (fun i j => (x i, y j)) := by
  have e0 : (cartesianProduct A B).shape 0 = Nd.volume A.shape := by
    unfold cartesianProduct
    dsimp only
    rw [Matrix.cons_val_zero]
  have e1 : (cartesianProduct A B).shape 1 = Nd.volume B.shape := by
    unfold cartesianProduct
    dsimp only
    rw [Matrix.cons_val_one, Matrix.cons_val_zero]
  refine ⟨e0.trans (hA.volume hm), e1.trans (hB.volume hn), fun i hi j hj => ?_⟩
  unfold cartesianProduct
  dsimp only
  show (A.get fun _ => i).bind (fun x => (B.get fun _ => j).map fun y => (x, y)) = _
  rw [hA.2 i hi, Outcome.bind_ok, hB.2 j hj, Outcome.map_ok]

/-- Elements in a single row. -/
theorem Line.row {A : Arr 1 α} {n : Nat} {y : Nat → α} (h : Line A n y) (hn : n < 2 ^ 31) :
    ∃ buf R, elements A = .ok buf ∧ reshape ![1, Nd.volume A.shape] A.shape buf = .ok R ∧ Grid R 1 n (fun _ j => y j) := by
  have he := elements_rank_one (line_iff.mp h) (by omega)
  have hc : count (![1, n] : Ix 2) = n := by rw [count_pair, one_mul]
  obtain ⟨B, e, hB⟩ := ofBuffer_denotes (s := (![1, n] : Ix 2)) (f := fun i => y (i 1)) (buf := (List.range n).map y) (by rw [hc]; exact hn)
    (by rw [hc, List.length_map, List.length_range]) (fun i hi => by
      have h0 : i 0 = 0 := by
        have := hi 0
        have : i 0 < 1 := this
        omega
      have h1 : i 1 < n := hi 1
      have ho : off (![1, n] : Ix 2) i = i 1 := by
        rw [pair_eq i, h0]
        simp [off, Fin.tail, count]
      rw [ho, List.getElem?_map, List.getElem?_range h1]
      rfl)
  refine ⟨_, B, he, ?_, grid_iff.mpr hB⟩
  unfold reshape
  rw [h.volume hn, volume_small (by rw [hc]; exact hn), hc, if_neg (fun hh => hh rfl)]
  exact e

end Verif.Nd
