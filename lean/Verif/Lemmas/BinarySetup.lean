import Verif.Spec.BinarySetup
import Verif.Props.BinaryShort
import Verif.Props.Quadtree

/-!
# Lemmas on the start of the binary program
-/

namespace Verif.Nd

open Verif

/-- The least element by a linear order. -/
theorem foldl_min {α : Type} [LinearOrder α] (l : List α) (a : α) :
    ∃ m ∈ a :: l, (l.foldl (fun r x => match r with
      | none => some x
      | some m => if decide (x < m) then some x else some m) (some a)) = some m ∧ ∀ x ∈ a :: l, m ≤ x := by
  induction l generalizing a with
  | nil => exact ⟨a, List.mem_cons_self, rfl, fun x hx => by rw [List.mem_singleton.1 hx]⟩
  | cons b l ih =>
    rw [List.foldl_cons]
    dsimp only
    by_cases h : b < a
    · rw [if_pos (decide_eq_true h)]
      obtain ⟨m, hm, e, hle⟩ := ih b
      refine ⟨m, List.mem_cons_of_mem _ hm, e, fun x hx => ?_⟩
      rcases List.mem_cons.1 hx with rfl | hx
      · exact (hle b List.mem_cons_self).trans h.le
      · exact hle x hx
    · rw [if_neg (by simpa using h)]
      obtain ⟨m, hm, e, hle⟩ := ih a
      refine ⟨m, ?_, e, fun x hx => ?_⟩
      · rcases List.mem_cons.1 hm with rfl | hm
        · exact List.mem_cons_self
        · exact List.mem_cons_of_mem _ (List.mem_cons_of_mem _ hm)
      · rcases List.mem_cons.1 hx with rfl | hx
        · exact hle _ List.mem_cons_self
        · rcases List.mem_cons.1 hx with rfl | hx
          · exact (hle a List.mem_cons_self).trans (not_lt.1 h)
          · exact hle x (List.mem_cons_of_mem _ hx)

theorem Grid.minBy {α : Type} [LinearOrder α] {A : Arr 2 α} {m n : Nat} {f : Nat → Nat → α} (h : Grid A m n f) (hm : 1 ≤ m) (hn : 1 ≤ n)
    (hm' : m < 2 ^ 64) (hn' : n < 2 ^ 64) (d : α) :
    ∃ v, Nd.minBy (fun x y => decide (x < y)) d A = .ok v ∧ (∃ x < m, ∃ y < n, v = f x y) ∧ ∀ x < m, ∀ y < n, v ≤ f x y := by
  obtain ⟨L, hL, hmem, _⟩ := elements_denotes (grid_iff.1 h) (Or.inl (by
    intro a
    fin_cases a
    · exact hm
    · exact hn)) (pair_lt hm' hn')
  unfold Nd.minBy
  rw [hL, Outcome.map_ok]
  have h0 : ![0, 0] ∈ L := (hmem _).2 (by
    intro a
    fin_cases a
    · exact hm
    · exact hn)
  obtain ⟨a, L', rfl⟩ : ∃ a L', L = a :: L' := by
    cases L with
    | nil => cases h0
    | cons a L' => exact ⟨a, L', rfl⟩
  obtain ⟨v, hv, e, hle⟩ := foldl_min (L'.map fun i => f (i 0) (i 1)) (f (a 0) (a 1))
  rw [List.map_cons, List.foldl_cons]
  dsimp only
  refine ⟨v, congrArg (fun o => Outcome.ok (Option.getD o d)) e, ?_, fun x hx y hy => ?_⟩
  · rw [← List.map_cons (f := fun i : Ix 2 => f (i 0) (i 1))] at hv
    obtain ⟨i, hi, rfl⟩ := List.mem_map.1 hv
    have := (hmem i).1 hi
    exact ⟨i 0, this 0, i 1, this 1, rfl⟩
  · refine hle _ ?_
    rw [← List.map_cons (f := fun i : Ix 2 => f (i 0) (i 1))]
    exact List.mem_map.2 ⟨![x, y], (hmem _).2 (by
      intro a
      fin_cases a
      · exact hx
      · exact hy), rfl⟩

theorem Grid.maxBy {α : Type} [LinearOrder α] {A : Arr 2 α} {m n : Nat} {f : Nat → Nat → α} (h : Grid A m n f) (hm : 1 ≤ m) (hn : 1 ≤ n)
    (hm' : m < 2 ^ 64) (hn' : n < 2 ^ 64) (d : α) :
    ∃ v, Nd.minBy (fun x y => decide (x > y)) d A = .ok v ∧ (∃ x < m, ∃ y < n, v = f x y) ∧ ∀ x < m, ∀ y < n, f x y ≤ v :=
  Grid.minBy (α := αᵒᵈ) h hm hn hm' hn' d

end Verif.Nd

namespace Verif.Binary

open Verif Verif.Nd Verif.Tree Iso2d Geometry TwoBody

variable {sh : Nat → Outcome Nat}

/-- A function of blocks on a tree of blocks. -/
theorem Blocks.mapM {α β γ : Type} {T : Verif.Tree.Tree 2 γ} {t : Quad α} {m n k l : Nat} {f : Index 2 → Nat → Nat → α} {g : Index 2 → Nat → Nat → β}
    {F : Arr 2 α → Outcome (Arr 2 β)} (hf : Blocks T t m n f)
    (h : ∀ i B, LeafAt t i B → Grid B m n (f i) → ∃ C, F B = .ok C ∧ Grid C k l (g i)) : ∃ u, Tree.mapM F t = .ok u ∧ Blocks T u k l g := by
  obtain ⟨u, _, e, hsh, hu⟩ := mapM_choose (γ := Unit) (P := fun i C _ => Grid C k l (g i)) t fun i B hi => by
    obtain ⟨C, h1, h2⟩ := h i B hi (hf.2 i B hi)
    exact ⟨C, (), h1, h2⟩
  exact ⟨u, e, hsh.trans hf.1, hu⟩

/-- A number for each block of a tree of blocks. -/
theorem Blocks.mapV {α β γ : Type} {T : Verif.Tree.Tree 2 γ} {t : Quad α} {m n : Nat} {f : Index 2 → Nat → Nat → α} {F : Arr 2 α → Outcome β}
    {P : Index 2 → β → Prop} (hf : Blocks T t m n f) (h : ∀ i B, LeafAt t i B → Grid B m n (f i) → ∃ v, F B = .ok v ∧ P i v) :
    ∃ u, Tree.mapM F t = .ok u ∧ SameShape u T ∧ ∀ i v, LeafAt u i v → P i v := by
  obtain ⟨u, _, e, hsh, hu⟩ := mapM_choose (γ := Unit) (P := fun i v _ => P i v) t fun i B hi => by
    obtain ⟨C, h1, h2⟩ := h i B hi (hf.2 i B hi)
    exact ⟨C, (), h1, h2⟩
  exact ⟨u, e, hsh.trans hf.1, hu⟩

theorem vertices_ok {c : RunConfig} (hN : 1 ≤ c.blockSize) (hb : (c.blockSize + 2) * (c.blockSize + 2) < 2 ^ 31) (hD : c.depth ≤ 30)
    (hs : TotalShift sh) (pred : Nat → ℝ → Bool) : ∃ n V, (∀ fuel, n ≤ fuel → createVertices sh pred fuel c = .ok V) ∧
    Shaped V c.depth c.blockSize ∧ (Blocks V V (c.blockSize + 1) (c.blockSize + 1) fun i x y =>
      (coordinate c.domainRadius c.blockSize i 0 x, coordinate c.domainRadius c.blockSize i 1 y)) ∧
    ((∃ l, l < c.depth ∧ ∀ ρ, pred l ρ = true) → ∀ i B, LeafAt V i B → 1 ≤ i.level) := by
  have hb1 : (c.blockSize + 1) * (c.blockSize + 1) < 2 ^ 31 := by nlinarith
  obtain ⟨n, r, h1, h2, h3, h4, h5⟩ := create_vertex_quadtree hs.1 pred c.blockSize c.blockSize c.depth hN hN hb1 hD
  have hr : Blocks r r (c.blockSize + 1) (c.blockSize + 1) fun i x y =>
      (-1 + 2 * ((i.coords 0 : ℝ) + (x : ℝ) / c.blockSize) / 2 ^ i.level, -1 + 2 * ((i.coords 1 : ℝ) + (y : ℝ) / c.blockSize) / 2 ^ i.level) :=
    ⟨fun _ => Iff.rfl, fun i B hB => grid_iff.2 (h4 i B hB)⟩
  obtain ⟨V, eV, hV⟩ := hr.mapM (F := fun B => evaluate (B.map fun p => (p.1 * c.domainRadius, p.2 * c.domainRadius)))
    (k := c.blockSize + 1) (l := c.blockSize + 1) (g := fun i x y =>
      (coordinate c.domainRadius c.blockSize i 0 x, coordinate c.domainRadius c.blockSize i 1 y)) fun i B _ hB => by
    obtain ⟨C, e, h⟩ := (hB.map fun p => (p.1 * c.domainRadius, p.2 * c.domainRadius)).evaluate (by omega) (by omega) hb1
    refine ⟨C, e, h.congr rfl rfl fun x _ y _ => ?_⟩
    have : (c.blockSize : ℝ) ≠ 0 := by positivity
    unfold coordinate cellSize
    refine Prod.ext ?_ ?_ <;> dsimp only <;> field_simp <;> ring
  refine ⟨n, V, fun fuel hf => by unfold createVertices; rw [h1 fuel hf, Outcome.bind_ok, eV], ⟨h3.sameShape hV.1, hD,
    h2.sameShape hV.1, hN, hb⟩, ⟨fun _ => Iff.rfl, hV.2⟩, fun hp i B hi => by
    obtain ⟨A, hA⟩ := (hV.1 i).1 ⟨B, hi⟩
    exact h5 hp i A hA⟩

/-- The middles of the cells. -/
theorem centers_ok {rd : ℝ} {N : Nat} {i : Index 2} {B : Arr 2 (ℝ × ℝ)} (hN : N + 1 < 2 ^ 64)
    (h : Grid B (N + 1) (N + 1) fun x y => (coordinate rd N i 0 x, coordinate rd N i 1 y)) :
    ∃ X, blockCenters B = .ok X ∧ Grid X N N (cellCenter rd N i) := by
  obtain ⟨X, eX, hX⟩ := Along.midpointWith (a := 1) ((1 / 2, 1 / 2) : ℝ × ℝ) (m := N + 1) (n := N) (f := fun y x => (coordinate rd N i 0 x, coordinate rd N i 1 y))
    h (by omega) (by omega)
  obtain ⟨Y, eY, hY⟩ := Along.midpointWith (a := 0) ((1 / 2, 1 / 2) : ℝ × ℝ) (m := N) (n := N) hX (by omega) (by omega)
  refine ⟨Y, ?_, Grid.congr hY rfl rfl fun x _ y _ => ?_⟩
  · unfold blockCenters
    rw [show Nd.midpoint ((1 / 2, 1 / 2) : ℝ × ℝ) 0 B = .ok X from eX, Outcome.bind_ok]
    exact eY
  · unfold cellCenter coordinate
    refine Prod.ext ?_ ?_ <;> simp only [Prod.fst_add, Prod.snd_add, Prod.fst_mul, Prod.snd_mul] <;> push_cast <;> ring

theorem grid_small {N : Nat} (h : (N + 2) * (N + 2) < 2 ^ 31) : N + 1 < 2 ^ 64 ∧ N * N < 2 ^ 31 := by
  constructor <;> nlinarith

theorem coordinate_step (rd : ℝ) (N : Nat) (i : Index 2) (a : Fin 2) (x : Nat) :
    coordinate rd N i a (x + 1 : ℕ) - coordinate rd N i a x = cellSize rd N i := by
  unfold coordinate
  push_cast
  ring

/-- The areas of the cells. -/
theorem areas_ok {rd : ℝ} {N : Nat} {i : Index 2} {B : Arr 2 (ℝ × ℝ)} (hN : 1 ≤ N) (hb : (N + 2) * (N + 2) < 2 ^ 31)
    (h : Grid B (N + 1) (N + 1) fun x y => (coordinate rd N i 0 x, coordinate rd N i 1 y)) :
    ∃ X, blockAreas B = .ok X ∧ Grid X N N fun _ _ => cellSize rd N i ^ 2 := by
  obtain ⟨h1, h2⟩ := grid_small hb
  have h3 : N < 2 ^ 64 := by omega
  obtain ⟨D0, e0, k0⟩ := (h.map Prod.fst).difference0 h1 h1
  obtain ⟨D1, e1, k1⟩ := k0.midpoint1 h3 h1
  obtain ⟨D2, e2, k2⟩ := (h.map Prod.snd).difference1 h1 h1
  obtain ⟨D3, e3, k3⟩ := k2.midpoint0 h1 h3
  obtain ⟨D4, e4, k4⟩ := k1.binaryOp k3 (· * ·)
  obtain ⟨D5, e5, k5⟩ := k4.evaluate hN hN h2
  refine ⟨D5, by unfold blockAreas; rw [e0, Outcome.bind_ok, e1, Outcome.bind_ok, e2, Outcome.bind_ok, e3, Outcome.bind_ok, e4, Outcome.bind_ok, e5],
    k5.congr rfl rfl fun x _ y _ => ?_⟩
  dsimp only
  rw [coordinate_step, coordinate_step]
  ring

/-- The smallest step of the vertices. -/
theorem step_ok {rd : ℝ} {N : Nat} {i : Index 2} {B : Arr 2 (ℝ × ℝ)} (hN : 1 ≤ N) (hb : (N + 2) * (N + 2) < 2 ^ 31)
    (h : Grid B (N + 1) (N + 1) fun x y => (coordinate rd N i 0 x, coordinate rd N i 1 y)) (a : Fin 2) :
    ∃ v, blockStep a B = .ok v ∧ v = cellSize rd N i := by
  obtain ⟨h1, _⟩ := grid_small hb
  have h3 : N < 2 ^ 64 := by omega
  fin_cases a
  · obtain ⟨D0, e0, k0⟩ := (h.map (component 0)).difference0 h1 h1
    obtain ⟨v, ev, ⟨x, _, y, _, hv⟩, _⟩ := k0.minBy hN (by omega) h3 h1 0
    refine ⟨v, ?_, ?_⟩
    · show (Nd.difference 0 (B.map (component 0))).bind _ = _
      rw [e0, Outcome.bind_ok]
      convert ev
    · rw [hv]
      exact coordinate_step rd N i 0 x
  · obtain ⟨D0, e0, k0⟩ := (h.map (component 1)).difference1 h1 h1
    obtain ⟨v, ev, ⟨x, _, y, _, hv⟩, _⟩ := k0.minBy (by omega) hN h1 h3 0
    refine ⟨v, ?_, ?_⟩
    · show (Nd.difference 1 (B.map (component 1))).bind _ = _
      rw [e0, Outcome.bind_ok]
      convert ev
    · rw [hv]
      exact coordinate_step rd N i 1 y

/-- The damping rates. -/
theorem buffer_ok {c : RunConfig} {N : Nat} {i : Index 2} {B : Arr 2 (ℝ × ℝ)} (hN : 1 ≤ N) (hb : (N + 2) * (N + 2) < 2 ^ 31)
    (h : Grid B (N + 1) (N + 1) fun x y => (coordinate c.domainRadius N i 0 x, coordinate c.domainRadius N i 1 y)) :
    ∃ X, blockBuffer c B = .ok X ∧ Grid X N N fun x y => bufferRate c (cellCenter c.domainRadius N i x y) := by
  obtain ⟨h1, h2⟩ := grid_small hb
  obtain ⟨X, eX, hX⟩ := centers_ok h1 h
  obtain ⟨Y, eY, hY⟩ := (hX.map fun p => c.bufferDampingRate * (1 + Real.tanh (3 * (Real.sqrt (p.1 * p.1 + p.2 * p.2) - c.domainRadius)))).evaluate hN hN h2
  refine ⟨Y, by unfold blockBuffer; rw [eX, Outcome.bind_ok, eY], hY.congr rfl rfl fun x _ y _ => ?_⟩
  unfold bufferRate
  simp only [pow_two]

section
variable {c : RunConfig} (hc : Sensible c)
include hc

theorem Sensible.s0_pos : 0 < c.s0 := by
  have := hc.mass
  have := hc.disk
  unfold RunConfig.s0
  positivity

theorem Sensible.sigma_pos (r : ℝ) : 0 < c.sigma r := by
  have := hc.s0_pos
  have := hc.ambient
  unfold RunConfig.sigma RunConfig.s1
  positivity

theorem Sensible.mach : 1 ≤ c.machNumber ^ 2 := by
  have := hc.cold
  have : 0 ≤ (c.domainRadius / c.diskRadius) ^ 2 := sq_nonneg _
  linarith

/-- The square of the rotation speed is not negative. -/
theorem Sensible.rotation {r : ℝ} (h0 : 0 < r) (hr : r ^ 2 ≤ 2 * c.domainRadius ^ 2) : 0 ≤ 1 / (r + c.softeningRadius) + c.dpdr r := by
  have hs := hc.softening
  have hd := hc.disk
  have hsig := hc.sigma_pos r
  have hm := hc.mach
  have hs1 : 0 ≤ c.s1 := mul_nonneg hc.ambient hc.s0_pos.le
  have ht0 : 0 ≤ 1 - c.s1 / c.sigma r := by
    rw [sub_nonneg, div_le_one hsig]
    unfold RunConfig.sigma
    have := hc.s0_pos
    have : 0 ≤ c.s0 * Real.exp (-(1 / 2) * (r / c.diskRadius - 1) * (r / c.diskRadius - 1)) := by positivity
    dsimp only
    linarith
  have ht1 : 1 - c.s1 / c.sigma r ≤ 1 := by
    have : 0 ≤ c.s1 / c.sigma r := by positivity
    linarith
  set t := 1 - c.s1 / c.sigma r with ht
  set x := r / c.diskRadius with hx
  have hx0 : 0 < x := by positivity
  have hx2 : x ^ 2 ≤ c.machNumber ^ 2 - 1 := by
    refine le_trans ?_ hc.cold
    rw [hx, div_pow, div_pow, ← mul_div_assoc]
    exact div_le_div_of_nonneg_right hr (by positivity)
  have key : -(c.machNumber ^ 2) ≤ x * (1 - x) * t - 1 := by
    nlinarith [mul_nonneg (mul_nonneg hx0.le ht0) hx0.le, mul_nonneg hx0.le ht0, mul_nonneg (sq_nonneg x) (sub_nonneg.2 ht1)]
  have hM : c.machNumber ≠ 0 := by
    intro h
    rw [h] at hm
    norm_num at hm
  have e : 1 / (r + c.softeningRadius) + c.dpdr r
      = 1 / (r + c.softeningRadius) * ((c.machNumber ^ 2 + (x * (1 - x) * t - 1)) / c.machNumber ^ 2) := by
    unfold RunConfig.dpdr
    rw [← hx, ← ht]
    field_simp
  rw [e]
  have : 0 < c.machNumber ^ 2 := by linarith
  exact mul_nonneg (by positivity) (div_nonneg (by linarith) this.le)

theorem profile_ok {p : ℝ × ℝ} (h0 : p.1 * p.1 + p.2 * p.2 ≠ 0) (hr : p.1 * p.1 + p.2 * p.2 ≤ 2 * c.domainRadius ^ 2) :
    diskProfile c p = .ok (disk c p) := by
  have hn : 0 < p.1 * p.1 + p.2 * p.2 := lt_of_le_of_ne (add_nonneg (mul_self_nonneg _) (mul_self_nonneg _)) (Ne.symm h0)
  have hr0 : 0 < Real.sqrt (p.1 * p.1 + p.2 * p.2) := Real.sqrt_pos.2 hn
  have h1 := hc.rotation hr0 (by rw [Real.sq_sqrt hn.le]; exact hr)
  have hm := hc.mach
  have hM : c.machNumber ≠ 0 := by
    intro h
    rw [h] at hm
    norm_num at hm
  unfold diskProfile disk
  dsimp only
  rw [if_neg (by
    rintro (h | h | h | h | h | h)
    · exact hc.disk.ne' h
    · exact hM h
    · exact (add_pos hr0 hc.softening).ne' h
    · exact (hc.sigma_pos _).ne' h
    · exact hr0.ne' h
    · exact absurd h (not_lt.2 h1))]
  simp only [pow_two]
  congr 2
  · split_ifs <;> ring
  · split_ifs <;> ring

theorem center_bound {V : Quad (ℝ × ℝ)} {i : Index 2} {B : Arr 2 (ℝ × ℝ)} (hi : LeafAt V i B) {x y : Nat} (hx : x < c.blockSize) (hy : y < c.blockSize) :
    (cellCenter c.domainRadius c.blockSize i x y).1 * (cellCenter c.domainRadius c.blockSize i x y).1
      + (cellCenter c.domainRadius c.blockSize i x y).2 * (cellCenter c.domainRadius c.blockSize i x y).2 ≤ 2 * c.domainRadius ^ 2 := by
  have hN : (0 : ℝ) < c.blockSize := by exact_mod_cast hc.block
  have hrd := hc.radius
  have key : ∀ a : Fin 2, ∀ x : Nat, x < c.blockSize → coordinate c.domainRadius c.blockSize i a (x + 1 / 2) ^ 2 ≤ c.domainRadius ^ 2 := by
    intro a x hx
    have hv := NodeAt.valid hi a
    have h1 : (i.coords a : ℝ) + 1 ≤ 2 ^ i.level := by exact_mod_cast hv
    have h2 : (x : ℝ) + 1 ≤ c.blockSize := by exact_mod_cast hx
    have h3 : (0 : ℝ) ≤ i.coords a := Nat.cast_nonneg _
    have h4 : (0 : ℝ) ≤ x := Nat.cast_nonneg _
    have hp : (0 : ℝ) < 2 ^ i.level := by positivity
    have e : coordinate c.domainRadius c.blockSize i a (x + 1 / 2) =
        c.domainRadius * (2 * ((i.coords a * c.blockSize + (x + 1 / 2)) / (c.blockSize * 2 ^ i.level)) - 1) := by
      unfold coordinate cellSize
      field_simp
      ring
    have q0 : 0 ≤ ((i.coords a : ℝ) * c.blockSize + (x + 1 / 2)) / (c.blockSize * 2 ^ i.level) := by positivity
    have q1 : ((i.coords a : ℝ) * c.blockSize + (x + 1 / 2)) / (c.blockSize * 2 ^ i.level) ≤ 1 := by
      rw [div_le_one (by positivity)]
      nlinarith
    rw [e]
    generalize ((i.coords a : ℝ) * c.blockSize + (x + 1 / 2)) / (c.blockSize * 2 ^ i.level) = q at q0 q1
    rw [mul_pow]
    have : (2 * q - 1) ^ 2 ≤ 1 := by nlinarith
    nlinarith [sq_nonneg c.domainRadius]
  have h1 := key 0 x hx
  have h2 := key 1 y hy
  unfold cellCenter
  dsimp only
  nlinarith

theorem profile_block {V : Quad (ℝ × ℝ)} {i : Index 2} {B : Arr 2 (ℝ × ℝ)} (hi : LeafAt V i B)
    (hoff : i.level ≠ 0 ∨ c.blockSize % 2 = 0) {X : Arr 2 (ℝ × ℝ)}
    (hX : Grid X c.blockSize c.blockSize (cellCenter c.domainRadius c.blockSize i)) :
    Grid (X.mapO (diskProfile c)) c.blockSize c.blockSize fun x y => disk c (cellCenter c.domainRadius c.blockSize i x y) :=
  hX.mapO fun x hx y hy => profile_ok hc (center_ne hc.radius hc.block hoff x y) (center_bound hc hi hx hy)

/-- The initial data of a block. -/
theorem initial_ok {V : Quad (ℝ × ℝ)} {i : Index 2} {B : Arr 2 (ℝ × ℝ)} (hi : LeafAt V i B) (hoff : i.level ≠ 0 ∨ c.blockSize % 2 = 0)
    (h : Grid B (c.blockSize + 1) (c.blockSize + 1) fun x y => (coordinate c.domainRadius c.blockSize i 0 x, coordinate c.domainRadius c.blockSize i 1 y))
    (lin : Bool) : ∃ U, initialBlock lin c B = .ok U ∧ Grid U c.blockSize c.blockSize fun x y =>
      startOf lin c (cellCenter c.domainRadius c.blockSize i x y) := by
  obtain ⟨h1, h2⟩ := grid_small hc.bound
  obtain ⟨X, eX, hX⟩ := centers_ok h1 h
  have hP := profile_block hc hi hoff hX
  unfold initialBlock
  rw [eX, Outcome.bind_ok]
  cases lin
  · obtain ⟨Y, eY, hY⟩ := hX.binaryOp hP fun (x : ℝ × ℝ) P => toAngmom P x.1 x.2
    obtain ⟨Z, eZ, hZ⟩ := hY.evaluate hc.block hc.block h2
    exact ⟨Z, by rw [if_neg (by decide), eY, Outcome.bind_ok, eZ], hZ⟩
  · obtain ⟨Z, eZ, hZ⟩ := (hP.map toConserved).evaluate hc.block hc.block h2
    exact ⟨Z, by rw [if_pos rfl, eZ], hZ⟩

/-- The largest speed of a block. -/
theorem speed_ok {V : Quad (ℝ × ℝ)} {i : Index 2} {B : Arr 2 (ℝ × ℝ)} (hi : LeafAt V i B) (hoff : i.level ≠ 0 ∨ c.blockSize % 2 = 0)
    (h : Grid B (c.blockSize + 1) (c.blockSize + 1) fun x y => (coordinate c.domainRadius c.blockSize i 0 x, coordinate c.domainRadius c.blockSize i 1 y)) :
    ∃ v, blockSpeed c B = .ok v ∧ 0 ≤ v := by
  obtain ⟨h1, h2⟩ := grid_small hc.bound
  have h3 : c.blockSize < 2 ^ 64 := by omega
  obtain ⟨X, eX, hX⟩ := centers_ok h1 h
  have hP := (profile_block hc hi hoff hX).map fun P => Real.sqrt (velocitySquared P)
  obtain ⟨v, ev, ⟨x, _, y, _, hv⟩, _⟩ := hP.maxBy hc.block hc.block h3 h3 0
  refine ⟨v, ?_, ?_⟩
  · unfold blockSpeed
    rw [eX, Outcome.bind_ok]
    convert ev
  · rw [hv]
    exact Real.sqrt_nonneg _

end

end Verif.Binary
