import Verif.Model.NdOps
import Verif.Lemmas.NdIter

/-!
# What the array operators denote
-/

namespace Verif.Nd
open Verif

variable {R : Nat} {α β γ : Type}

theorem Denotes.congr {A : Arr R α} {s t : Ix R} {f g : Ix R → α} (h : Denotes A s f) (hs : s = t)
    (hf : ∀ i, InShape t i → f i = g i) : Denotes A t g := by
  subst hs
  exact ⟨h.1, fun i hi => by rw [h.2 i hi, hf i hi]⟩

theorem Denotes.map {A : Arr R α} {s : Ix R} {f : Ix R → α} (h : Denotes A s f) (u : α → β) :
    Denotes (A.map u) s (fun i => u (f i)) := by
  obtain ⟨rfl, hf⟩ := h
  exact ⟨rfl, fun i hi => by simp [Arr.map, hf i hi]⟩

theorem binaryOp_denotes {A : Arr R α} {B : Arr R β} {s : Ix R} {f : Ix R → α} {g : Ix R → β}
    (hA : Denotes A s f) (hB : Denotes B s g) (u : α → β → γ) :
    ∃ C, binaryOp u A B = .ok C ∧ Denotes C s (fun i => u (f i) (g i)) := by
  obtain ⟨rfl, hf⟩ := hA
  obtain ⟨hs, hg⟩ := hB
  unfold binaryOp
  rw [if_neg (by simp [hs])]
  refine ⟨_, rfl, rfl, fun i hi => ?_⟩
  simp only
  rw [hf i hi, Outcome.bind_ok, hg i hi, Outcome.bind_ok]

theorem inShape_update {s i : Ix R} {a : Fin R} {n : Nat} :
    InShape (Function.update s a n) i ↔ i a < n ∧ ∀ b, b ≠ a → i b < s b := by
  constructor
  · intro h
    refine ⟨by simpa using h a, fun b hb => by have := h b; rwa [Function.update_of_ne hb] at this⟩
  · rintro ⟨h1, h2⟩ b
    by_cases hb : b = a
    · subst hb; simpa using h1
    · rw [Function.update_of_ne hb]; exact h2 b hb

theorem inShape_update_index {s i : Ix R} {a : Fin R} {n : Nat} :
    InShape s (Function.update i a n) ↔ n < s a ∧ ∀ b, b ≠ a → i b < s b := by
  constructor
  · intro h
    refine ⟨by simpa using h a, fun b hb => by have := h b; rwa [Function.update_of_ne hb] at this⟩
  · rintro ⟨h1, h2⟩ b
    by_cases hb : b = a
    · subst hb; simpa using h1
    · rw [Function.update_of_ne hb]; exact h2 b hb

/-- The number of elements `start, start + jump, ...` below `final`. -/
def steps (start final jump : Nat) : Nat := (final - start + jump - 1) / jump

theorem lt_steps {start final jump i : Nat} (h1 : start ≤ final) (h2 : 0 < jump) :
    i < steps start final jump ↔ start + jump * i < final := by
  unfold steps
  rw [Nat.lt_div_iff_mul_lt h2, mul_comm]
  omega

theorem steps_one {start final : Nat} : steps start final 1 = final - start := by
  unfold steps; rw [Nat.div_one]; omega

/-- One component of the shape of an access pattern. -/
theorem shape_comp {st fi j : Nat} (h : (st < fi ∧ 0 < j) ∨ (st = fi ∧ j = 1)) (hb : fi + j ≤ 2 ^ 64) :
    w (wsub (wsub fi st) 1 / j + 1) = steps st fi j := by
  rcases h with ⟨h1, h2⟩ | ⟨rfl, rfl⟩
  · have e : wsub fi st = fi - st := wsub_eq (by omega) (by omega)
    have e2 : wsub (fi - st) 1 = fi - st - 1 := wsub_eq (by omega) (by omega)
    rw [e, e2]
    have := Nat.div_le_self (fi - st - 1) j
    rw [w_eq (by omega)]
    unfold steps
    have e3 : fi - st + j - 1 = fi - st - 1 + j := by omega
    rw [e3, Nat.add_div_right _ h2]
  · rw [steps_one]
    unfold w wsub
    rw [Nat.div_one]
    omega

/-- Selection with a stride on one axis and everything on the others. -/
theorem selectAxis_denotes {A : Arr R α} {s : Ix R} {f : Ix R → α} (hA : Denotes A s f) (hb : ∀ b, s b < 2 ^ 64)
    (a : Fin R) (st fin fi j : Nat) (e : Bool) (hfi : (if e then wsub (s a) fin else fin) = fi)
    (hle : fi ≤ s a) (h : (st < fi ∧ 0 < j) ∨ (st = fi ∧ j = 1)) (hj : fi + j ≤ 2 ^ 64) :
    ∃ B, selectAxis a st fin j e A = .ok B ∧
      Denotes B (Function.update s a (steps st fi j)) (fun i => f (Function.update i a (st + j * i a))) := by
  obtain ⟨rfl, hf⟩ := hA
  unfold selectAxis
  rw [dif_pos a.2]
  simp only [Fin.eta]
  rw [if_neg (by omega), hfi]
  refine ⟨_, rfl, ?_, fun i hi => ?_⟩
  · funext b
    unfold AccessPattern.shape
    by_cases hba : b = a
    · subst hba
      simp only [Function.update_self]
      exact shape_comp h hj
    · simp only [Function.update_of_ne hba, makeAccessPattern]
      have hbb := hb b
      rw [shape_comp (by omega) (by omega), steps_one]; rfl
  · obtain ⟨h1, h2⟩ := inShape_update.1 hi
    rw [lt_steps (by omega) (by omega)] at h1
    rw [← hf (Function.update i a (st + j * i a)) (inShape_update_index.2 ⟨by omega, h2⟩)]
    show A.get _ = A.get _
    congr 1
    funext b
    unfold AccessPattern.mapIndex
    by_cases hba : b = a
    · subst hba
      simp only [Function.update_self]
      have e : w (j * i b) = j * i b := w_eq (by omega)
      rw [e, w_eq (by omega)]
    · simp only [Function.update_of_ne hba, makeAccessPattern]
      have := h2 b hba
      have := hb b
      rw [Nat.one_mul, Nat.zero_add, w_eq (n := i b) (by omega), w_eq (by omega)]

/-- The same for the checked selection of elements `st` to `fi` on one axis. -/
theorem select_range {A : Arr R α} {s : Ix R} {f : Ix R → α} (hA : Denotes A s f) (hb : ∀ b, s b < 2 ^ 64)
    (a : Fin R) (st fi : Nat) (hst : st ≤ fi) (hfi : fi < 2 ^ 64) :
    (fi ≤ s a → ∃ B, select ⟨Function.update (fun _ => 0) a st, Function.update s a fi, fun _ => 1⟩ A = .ok B ∧
      Denotes B (Function.update s a (fi - st)) (fun i => f (Function.update i a (st + i a)))) ∧
    (s a < fi → select ⟨Function.update (fun _ => 0) a st, Function.update s a fi, fun _ => 1⟩ A =
      .throws .logicError) := by
  obtain ⟨rfl, hf⟩ := hA
  set p : AccessPattern R := ⟨Function.update (fun _ => 0) a st, Function.update A.shape a fi, fun _ => 1⟩ with hp
  have hsh : p.shape = Function.update A.shape a (fi - st) := by
    funext b
    unfold AccessPattern.shape
    rw [hp]
    by_cases hba : b = a
    · subst hba
      simp only [Function.update_self]
      rw [shape_comp (by omega) (by omega), steps_one]
    · simp only [Function.update_of_ne hba]
      have hbb := hb b
      rw [shape_comp (by omega) (by omega), steps_one]; rfl
  have hjs : p.JumpsOk = true := jumpsOk_iff.2 fun b => by rw [hp]; simp
  have hmap : ∀ i : Ix R, i a ≤ fi - st → (∀ b, b ≠ a → i b ≤ A.shape b) →
      p.mapIndex i = Function.update i a (st + i a) := by
    intro i h1 h2
    funext b
    unfold AccessPattern.mapIndex
    rw [hp]
    by_cases hba : b = a
    · subst hba
      simp only [Function.update_self, Nat.one_mul]
      rw [w_eq (n := i b) (by omega), w_eq (by omega)]
    · simp only [Function.update_of_ne hba]
      have := h2 b hba
      have := hb b
      rw [Nat.one_mul, Nat.zero_add, w_eq (n := i b) (by omega), w_eq (by omega)]
  have hwith : p.within A.shape = true ↔ fi ≤ A.shape a := by
    unfold AccessPattern.within
    rw [hsh, hmap (fun _ => 0) (by simp) (by simp), hmap _ (by simp) (fun b hba => by rw [Function.update_of_ne hba])]
    simp only [List.all_eq_true, List.mem_finRange, forall_true_left, Bool.and_eq_true, decide_eq_true_eq]
    constructor
    · intro h
      have := (h a).2
      simp only [Function.update_self] at this
      omega
    · intro h b
      by_cases hba : b = a
      · subst hba
        simp only [Function.update_self]
        omega
      · simp only [Function.update_of_ne hba]
        omega
  constructor
  · intro hle
    unfold select
    rw [hjs, hwith.2 hle]
    refine ⟨_, rfl, hsh, fun i hi => ?_⟩
    obtain ⟨h1, h2⟩ := inShape_update.1 hi
    simp only
    rw [hmap i (by omega) (fun b hba => le_of_lt (h2 b hba)),
      hf _ (inShape_update_index.2 ⟨by omega, h2⟩)]
  · intro hlt
    unfold select
    have hno : p.within A.shape = false := Bool.eq_false_iff.2 (fun h' => by have := hwith.1 h'; omega)
    rw [hjs, hno]
    rfl

theorem selectFirst_denotes {A : Arr R α} {s : Ix R} {f : Ix R → α} (hA : Denotes A s f) (hb : ∀ b, s b < 2 ^ 64)
    (a : Fin R) (n : Nat) (hn : n ≤ s a) :
    ∃ B, selectFirst n a A = .ok B ∧ Denotes B (Function.update s a n) f := by
  obtain ⟨rfl, hf⟩ := hA
  obtain ⟨B, h1, h2⟩ := (select_range ⟨rfl, hf⟩ hb a 0 n (by omega) (by have := hb a; omega)).1 hn
  refine ⟨B, ?_, h2.congr (by simp) (fun i _ => by simp)⟩
  unfold selectFirst
  rw [dif_pos a.2]
  simp only [Fin.eta, Nat.zero_add]
  rw [w_eq (by have := hb a; omega), ← h1]
  congr 2
  funext b
  by_cases hba : b = a
  · subst hba; simp [makeAccessPattern]
  · rw [Function.update_of_ne hba]; rfl

theorem selectFirst_throws {A : Arr R α} {s : Ix R} {f : Ix R → α} (hA : Denotes A s f) (hb : ∀ b, s b < 2 ^ 64)
    (a : Fin R) (n : Nat) (hn : s a < n) (hn' : n < 2 ^ 64) : selectFirst n a A = .throws .logicError := by
  obtain ⟨rfl, hf⟩ := hA
  have h1 := (select_range ⟨rfl, hf⟩ hb a 0 n (by omega) hn').2 hn
  unfold selectFirst
  rw [dif_pos a.2]
  simp only [Fin.eta, Nat.zero_add]
  rw [w_eq (by omega), ← h1]
  congr 2
  funext b
  by_cases hba : b = a
  · subst hba; simp [makeAccessPattern]
  · rw [Function.update_of_ne hba]; rfl

theorem selectFinal_denotes {A : Arr R α} {s : Ix R} {f : Ix R → α} (hA : Denotes A s f) (hb : ∀ b, s b < 2 ^ 64)
    (a : Fin R) (n : Nat) (hn : n ≤ s a) :
    ∃ B, selectFinal n a A = .ok B ∧
      Denotes B (Function.update s a n) (fun i => f (Function.update i a (s a - n + i a))) := by
  obtain ⟨rfl, hf⟩ := hA
  obtain ⟨B, h1, h2⟩ := (select_range ⟨rfl, hf⟩ hb a (A.shape a - n) (A.shape a) (by omega) (hb a)).1 le_rfl
  refine ⟨B, ?_, h2.congr (by congr 1; omega) (fun i _ => rfl)⟩
  unfold selectFinal
  rw [dif_pos a.2]
  simp only [Fin.eta]
  rw [wsub_eq hn (hb a), ← h1]
  congr 2
  simp [makeAccessPattern]

theorem concat_denotes {A B : Arr R α} {s t : Ix R} {f g : Ix R → α} (hA : Denotes A s f) (hB : Denotes B t g)
    (a : Fin R) (hst : ∀ b, b ≠ a → t b = s b) (hb : s a + t a < 2 ^ 64) :
    ∃ C, concat a B A = .ok C ∧ Denotes C (Function.update s a (s a + t a))
      (fun i => if i a < s a then f i else g (Function.update i a (i a - s a))) := by
  obtain ⟨rfl, hf⟩ := hA
  obtain ⟨rfl, hg⟩ := hB
  unfold concat
  rw [dif_pos a.2, if_neg]
  · refine ⟨_, rfl, ?_, fun i hi => ?_⟩
    · simp only [Fin.eta]; rw [w_eq hb]
    · obtain ⟨h1, h2⟩ := inShape_update.1 hi
      simp only [Fin.eta]
      by_cases hlt : i a < A.shape a
      · rw [if_neg (by omega), if_pos hlt]
        refine hf i fun b => ?_
        by_cases hba : b = a
        · subst hba; exact hlt
        · exact h2 b hba
      · rw [if_pos (by omega), if_neg hlt]
        exact hg _ (inShape_update_index.2 ⟨by omega, fun b hba => by rw [hst b hba]; exact h2 b hba⟩)
  · simp only [Fin.eta, List.any_eq_true, List.mem_finRange, true_and, Bool.and_eq_true, decide_eq_true_eq, not_exists,
      not_and]
    intro b hba
    exact not_not.2 (hst b hba)

/-! ### loops over the elements -/

theorem readAll_ok {A : Arr R α} {f : Ix R → α} (l : List (Ix R)) (h : ∀ i ∈ l, A.get i = .ok (f i)) :
    readAll A l = .ok (l.map f) := by
  induction l with
  | nil => rfl
  | cons i l ih =>
    rw [readAll, h i (by simp), Outcome.bind_ok, ih (fun j hj => h j (by simp [hj])), Outcome.bind_ok]
    rfl

/-- The indexes visited in a shape, with their order. -/
theorem indexes_shape_sorted {s : Ix (R + 1)} (hp : (∀ a, 0 < s a) ∨ R = 0) (hb : ∀ a, s a < 2 ^ 64) :
    ∃ l, (makeAccessPattern s).indexes = .ok l ∧ (∀ i, i ∈ l ↔ InShape s i) ∧ l.Pairwise RowMajor := by
  obtain ⟨l, h1, h2⟩ := indexes_shape hp hb
  refine ⟨l, h1, h2, ?_⟩
  by_cases h : ∀ a, 0 < s a
  · rw [AccessPattern.indexes_eq _ (regular_make h hb)] at h1
    injection h1 with h1
    subst h1
    exact AccessPattern.sorted_grid (regular_make h hb)
  · have : l = [] := by
      rw [List.eq_nil_iff_forall_not_mem]
      intro i hi
      exact h fun a => lt_of_le_of_lt (Nat.zero_le _) ((h2 i).1 hi a)
    subst this; simp

theorem elements_denotes {A : Arr (R + 1) α} {s : Ix (R + 1)} {f : Ix (R + 1) → α} (hA : Denotes A s f)
    (hp : (∀ a, 0 < s a) ∨ R = 0) (hb : ∀ a, s a < 2 ^ 64) :
    ∃ l : List (Ix (R + 1)), elements A = .ok (l.map f) ∧ (∀ i, i ∈ l ↔ InShape s i) ∧ l.Pairwise RowMajor := by
  obtain ⟨rfl, hf⟩ := hA
  obtain ⟨l, h1, h2, h3⟩ := indexes_shape_sorted hp hb
  refine ⟨l, ?_, h2, h3⟩
  unfold elements
  rw [h1, Outcome.bind_ok, readAll_ok l fun i hi => hf i ((h2 i).1 hi)]

theorem rowMajor_irrefl (i : Ix R) : ¬ RowMajor i i := fun ⟨_, _, h⟩ => absurd h (lt_irrefl _)

theorem foldl_add_eq_sum [AddCommMonoid α] (l : List α) : l.foldl (· + ·) 0 = l.sum := by
  rw [List.sum_eq_foldl]

/-- The loop of `sum` computes the sum over all indexes. -/
theorem sum_denotes [AddCommMonoid α] {A : Arr (R + 1) α} {s : Ix (R + 1)} {f : Ix (R + 1) → α} (hA : Denotes A s f)
    (hp : (∀ a, 0 < s a) ∨ R = 0) (hb : ∀ a, s a < 2 ^ 64) : sum A = .ok (total s f) := by
  obtain ⟨l, h1, h2, h3⟩ := elements_denotes hA hp hb
  unfold sum
  rw [h1, Outcome.map_ok, foldl_add_eq_sum]
  congr 1
  have hn : l.Nodup := h3.imp fun {a b} h => by rintro rfl; exact rowMajor_irrefl _ h
  unfold total
  have : Fintype.piFinset (fun a => Finset.range (s a)) = l.toFinset := by
    ext i; simp [h2, InShape]
  rw [this, List.sum_toFinset f hn]

/-- The elements of an array of rank one. -/
theorem elements_rank_one {A : Arr 1 α} {s : Ix 1} {f : Ix 1 → α} (hA : Denotes A s f) (hb : s 0 < 2 ^ 64) :
    elements A = .ok ((List.range (s 0)).map fun k => f fun _ => k) := by
  obtain ⟨l, h1, h2, h3⟩ := elements_denotes hA (Or.inr rfl) (fun a => by rw [Fin.fin_one_eq_zero a]; exact hb)
  rw [h1]
  congr 1
  have hl : l.map (fun i => i 0) = List.range (s 0) := by
    apply List.Perm.eq_of_pairwise (le := (· < ·))
    · intro a b _ _ h h'; exact absurd h (Nat.lt_asymm h')
    · rw [List.pairwise_map]
      refine h3.imp ?_
      rintro i j ⟨a, _, h⟩
      rwa [Fin.fin_one_eq_zero a] at h
    · exact List.pairwise_lt_range
    · rw [List.perm_ext_iff_of_nodup]
      · intro k
        simp only [List.mem_map, List.mem_range, h2]
        constructor
        · rintro ⟨i, hi, rfl⟩; exact hi 0
        · intro hk; exact ⟨fun _ => k, fun a => by rw [Fin.fin_one_eq_zero a]; exact hk, rfl⟩
      · rw [List.nodup_iff_pairwise_ne, List.pairwise_map]
        refine h3.imp ?_
        rintro i j ⟨a, _, h⟩
        rw [Fin.fin_one_eq_zero a] at h
        omega
      · exact List.nodup_range
  rw [← hl, List.map_map]
  apply List.map_congr_left
  intro i _
  simp only [Function.comp]
  congr 1
  funext a
  rw [Fin.fin_one_eq_zero a]

end Verif.Nd
