import Verif.Lemmas.AmrSand

/-!
# C106, C107: the sandbox for adaptive meshes

`TotalShift sh`: the outcome of `1 << n` is `2^n` up to 30 and some number beyond (see C19).
-/

namespace Verif.AmrSand

open Verif Verif.Nd Verif.Tree Verif.Binary

variable {sh : Nat → Outcome Nat} {s : Solution} {D N : Nat} {f : Index 2 → Nat → Nat → ℝ}

/-! ### C106: bounds -/

/-- Values at an index lie between bounds on the values in all cells. -/
theorem ReadAt.bounds {β : Type} {T : Verif.Tree.Tree 2 β} {j : Index 2} {q : Nat → Nat → ℝ} (h : ReadAt T N f j q) {lo up : ℝ}
    (hf : ∀ i c, LeafAt T i c → ∀ x, x < N → ∀ y, y < N → lo ≤ f i x y ∧ f i x y ≤ up) :
    ∀ x, x < N → ∀ y, y < N → lo ≤ q x y ∧ q x y ≤ up := by
  intro x hx y hy
  rcases h with ⟨⟨c, hc⟩, h⟩ | ⟨m, c, k, hc, _, h⟩ | ⟨hc, h⟩
  · rw [h x hx y hy]
    exact hf j c hc x hx y hy
  · rw [h x hx y hy]
    have key : ∀ z n, z < N → (z + n % 2 * N) / 2 < N := by
      intro z n hz
      rcases Nat.mod_two_eq_zero_or_one n with e | e <;> rw [e] <;> omega
    exact hf m c hc _ (key x _ hx) _ (key y _ hy)
  · rw [h x hx y hy]
    have key : ∀ x y, lo ≤ fineCell N f j x y ∧ fineCell N f j x y ≤ up := by
      intro x y
      unfold fineCell
      have hk : ((if N ≤ x then 1 else 0) + if N ≤ y then 2 else 0) < 2 ^ 2 := by
        split <;> split <;> decide
      obtain ⟨c, hc⟩ := hc ⟨_, hk⟩
      exact hf _ c hc _ (Nat.mod_lt _ (by omega)) _ (Nat.mod_lt _ (by omega))
    have k1 := key (2 * x) (2 * y)
    have k2 := key (2 * x + 1) (2 * y)
    have k3 := key (2 * x) (2 * y + 1)
    have k4 := key (2 * x + 1) (2 * y + 1)
    constructor
    · rw [le_div_iff₀ (by norm_num)]
      linarith
    · rw [div_le_iff₀ (by norm_num)]
      linarith

theorem dt_pos (s : Solution) (N : Nat) : 0 < dt s N := by
  unfold dt
  positivity

/-- In one step the flow crosses less than half of a cell along each axis. -/
theorem courant_bounds (hm : Mesh s D N) {i : Index 2} {c : Arr 2 (ℝ × ℝ)} (hi : LeafAt s.vertices i c) :
    0 < courant s N i ∧ courant s N i < 1 / 2 := by
  have hN := hm.shaped.pos
  have hN' : (0 : ℝ) < N := by exact_mod_cast hN
  have hl := (tree_depth s.vertices).2 i c hi
  have hp : (2 : ℝ) ^ i.level ≤ 2 ^ s.vertices.depth := pow_le_pow_right₀ (by norm_num) hl
  have h0 : (0 : ℝ) < 2 ^ i.level := by positivity
  have h1 : (0 : ℝ) < 2 ^ s.vertices.depth := by positivity
  unfold courant dt cellSize
  generalize (2 : ℝ) ^ i.level = a at *
  generalize (2 : ℝ) ^ s.vertices.depth = b at *
  generalize (N : ℝ) = n at *
  have e : 2 / (n + 1) / b / (2 * (2 * 1 / n / a)) = n * a / ((n + 1) * b) / 2 := by
    field_simp
  rw [e]
  have hlt : n * a / ((n + 1) * b) < 1 := by
    rw [div_lt_one (by positivity)]
    nlinarith
  constructor
  · positivity
  · linarith

/-- **C106**: a step from any state on a balanced mesh does not fail, and makes no new extrema: the values in all cells are within the bounds of those
before.  The mesh stays, the time advances. -/
theorem maximum_principle_partial (hs : TotalShift sh) (hm : Mesh s D N) (hf : Blocks s.vertices s.conserved N N f) {lo up : ℝ}
    (hb : ∀ i c, LeafAt s.vertices i c → ∀ x, x < N → ∀ y, y < N → lo ≤ f i x y ∧ f i x y ≤ up) (fuel : Nat) :
    ∃ s' g, nextSolution sh (fuel + 2) s = .ok s' ∧ s'.vertices = s.vertices ∧ s'.time = s.time + dt s N ∧
      s'.iteration = s.iteration + 1 ∧ Blocks s.vertices s'.conserved N N g ∧
      ∀ i c, LeafAt s.vertices i c → ∀ x, x < N → ∀ y, y < N → lo ≤ g i x y ∧ g i x y ≤ up := by
  obtain ⟨s', q, e, h1, h2, h3, h4, h5⟩ := step_ok hs hm hf fuel
  refine ⟨s', _, e, h1, h2, h3, h5, fun i c hi x hx y hy => ?_⟩
  obtain ⟨hc0, hc1⟩ := courant_bounds hm hi
  have hq : ∀ a x, x < N → ∀ y, y < N → lo ≤ q a i x y ∧ q a i x y ≤ up := fun a => by
    obtain ⟨j, _, _, hr⟩ := h4 a i c hi
    exact hr.bounds hb
  have b0 : lo ≤ behind N 0 (f i) (q 0 i) x y ∧ behind N 0 (f i) (q 0 i) x y ≤ up := by
    show lo ≤ (if x = 0 then _ else _) ∧ (if x = 0 then _ else _) ≤ up
    split
    · exact hq 0 _ (by omega) _ hy
    · exact hb i c hi _ (by omega) _ hy
  have b1 : lo ≤ behind N 1 (f i) (q 1 i) x y ∧ behind N 1 (f i) (q 1 i) x y ≤ up := by
    show lo ≤ (if y = 0 then _ else _) ∧ (if y = 0 then _ else _) ≤ up
    split
    · exact hq 1 _ hx _ (by omega)
    · exact hb i c hi _ hx _ (by omega)
  have b2 := hb i c hi x hx y hy
  beta_reduce
  generalize behind N 0 (f i) (q 0 i) x y = p at *
  generalize behind N 1 (f i) (q 1 i) x y = r at *
  generalize courant s N i = k at *
  generalize f i x y = u at *
  have hk : 0 ≤ 1 - 2 * k := by linarith
  have e : u - k * (u - p + (u - r)) = (1 - 2 * k) * u + k * p + k * r := by ring
  rw [e]
  constructor
  · have := mul_le_mul_of_nonneg_left b2.1 hk
    have := mul_le_mul_of_nonneg_left b0.1 hc0.le
    have := mul_le_mul_of_nonneg_left b1.1 hc0.le
    linarith
  · have := mul_le_mul_of_nonneg_left b2.2 hk
    have := mul_le_mul_of_nonneg_left b0.2 hc0.le
    have := mul_le_mul_of_nonneg_left b1.2 hc0.le
    linarith

/-- A state in which the mesh is that of the start, and all values are between the bounds. -/
structure Between (V : Quad (ℝ × ℝ)) (D N : Nat) (lo up : ℝ) (s : Solution) : Prop where
  vertices : s.vertices = V
  mesh : Mesh s D N
  values : ∃ f : Index 2 → Nat → Nat → ℝ, Blocks V s.conserved N N f ∧
    ∀ i c, LeafAt V i c → ∀ x, x < N → ∀ y, y < N → lo ≤ f i x y ∧ f i x y ≤ up

/-- The initial state: a mesh for any block size and depth within the range of the types, and values between zero and one. -/
theorem start_ok (hs : TotalShift sh) (hN : 1 ≤ N) (hb : (N + 2) * (N + 2) < 2 ^ 31) (hD : D ≤ 30) :
    ∃ n s, (∀ fuel, n ≤ fuel → createSolution sh N D fuel = .ok s) ∧ s.time = 0 ∧ s.iteration = 0 ∧ Mesh s D N ∧
      (1 ≤ D → ∀ i c, LeafAt s.vertices i c → 1 ≤ i.level) ∧
      Blocks s.vertices s.conserved N N fun i x y =>
        Real.exp (-40 * ((cellCenter 1 N i x y).1 ^ 2 + (cellCenter 1 N i x y).2 ^ 2)) := by
  have hb1 : (N + 1) * (N + 1) < 2 ^ 31 := by nlinarith
  obtain ⟨h1, h2⟩ := grid_small hb
  obtain ⟨n, V, e, hbal, hdep, hg, hdiv⟩ := create_vertex_quadtree hs.1 predicate N N D hN hN hb1 hD
  have hr : Blocks V V (N + 1) (N + 1) fun i x y => (coordinate 1 N i 0 x, coordinate 1 N i 1 y) := by
    refine ⟨fun _ => Iff.rfl, fun i B hB => (Grid.of_denotes (hg i B hB)).congr rfl rfl fun x _ y _ => ?_⟩
    have : (N : ℝ) ≠ 0 := by positivity
    unfold coordinate cellSize
    refine Prod.ext ?_ ?_ <;> dsimp only [Matrix.cons_val_zero, Matrix.cons_val_one] <;> field_simp
  obtain ⟨u, eu, hu⟩ := hr.mapM (F := initialBlock) (k := N) (l := N) (g := fun i x y =>
      Real.exp (-40 * ((cellCenter 1 N i x y).1 ^ 2 + (cellCenter 1 N i x y).2 ^ 2))) fun i B _ hB => by
    obtain ⟨X, eX, hX⟩ := centers_ok h1 hB
    obtain ⟨Y, eY, hY⟩ := (hX.map fun p => Real.exp (-(p.1 * p.1 + p.2 * p.2) / (25 / 1000))).evaluate hN hN h2
    refine ⟨Y, ?_, hY.congr rfl rfl fun x _ y _ => ?_⟩
    · unfold blockCenters at eX
      unfold initialBlock
      rw [← eY]
      obtain ⟨Z, eZ, eX⟩ := Outcome.bind_eq_ok.1 eX
      rw [eZ, Outcome.bind_ok, eX, Outcome.bind_ok]
    · exact congrArg Real.exp (by ring)
  refine ⟨n, ⟨0, 0, V, u⟩, fun fuel hf => ?_, rfl, rfl, ⟨⟨hdep, hD, hbal, hN, hb⟩, hr⟩, fun h1 => hdiv ⟨0, by omega, fun ρ => ?_⟩, hu⟩
  · unfold createSolution
    rw [e fuel hf, Outcome.bind_ok, eu, Outcome.bind_ok]
  · unfold predicate
    exact decide_eq_true (.inl rfl)

/-- **C106**: the program, for any block size and depth within the range of the types, comes to its end.  The time is then the final time, or less than
one step later, and all values are between zero and one, as at the start. -/
theorem run_partial (hs : TotalShift sh) (hN : 1 ≤ N) (hb : (N + 2) * (N + 2) < 2 ^ 31) (hD : D ≤ 30) {tfinal : ℝ} (ht : 0 < tfinal) :
    ∃ n s, (∀ fuel, n ≤ fuel → createSolution sh N D fuel = .ok s) ∧ ∀ fuel, ∃ s', run sh (fuel + 2) tfinal s = .ok s' ∧
      tfinal ≤ s'.time ∧ s'.time < tfinal + dt s N ∧ Between s.vertices D N 0 1 s' := by
  classical
  obtain ⟨n, s, e, h0, _, hm, _, hf⟩ := start_ok hs hN hb hD
  refine ⟨n, s, e, fun fuel => ?_⟩
  have hd := dt_pos s N
  have hstart : Between s.vertices D N 0 1 s := ⟨rfl, hm, _, hf, fun i c _ x _ y _ => ⟨(Real.exp_pos _).le, by
    rw [Real.exp_le_one_iff]
    nlinarith [sq_nonneg (cellCenter 1 N i x y).1, sq_nonneg (cellCenter 1 N i x y).2]⟩⟩
  have hstep : ∀ r, Between s.vertices D N 0 1 r → ∃ r', nextSolution sh (fuel + 2) r = .ok r' ∧ r'.time = r.time + dt s N ∧
      Between s.vertices D N 0 1 r' := by
    intro r hr
    obtain ⟨f, hf, hb⟩ := hr.values
    have hv := hr.vertices
    rw [← hv] at hf hb
    obtain ⟨r', g, e, h1, h2, _, h4, h5⟩ := maximum_principle_partial hs hr.mesh hf hb fuel
    refine ⟨r', e, ?_, h1.trans hv, ⟨?_, ?_⟩, g, hv ▸ h4, hv ▸ h5⟩
    · rw [h2]
      unfold dt
      rw [hv]
    · rw [h1]
      exact hr.mesh.shaped
    · rw [h1]
      exact hr.mesh.vertices
  obtain ⟨s', es⟩ := Loop.whileLoop_terminates
    (fun s : Solution => if s.time < tfinal then (nextSolution sh (fuel + 2) s).map Sum.inl else .ok (Sum.inr s))
    (Between s.vertices D N 0 1) (fun r => ⌈(tfinal - r.time) / dt s N⌉₊) (fun r hr => by
      by_cases h : r.time < tfinal
      · right
        obtain ⟨r', e, h1, h2⟩ := hstep r hr
        refine ⟨r', by rw [if_pos h, e, Outcome.map_ok], h2, ?_⟩
        have hp : 0 < (tfinal - r.time) / dt s N := div_pos (by linarith) hd
        have : (tfinal - r'.time) / dt s N = (tfinal - r.time) / dt s N - 1 := by
          rw [h1]
          field_simp
          ring
        rw [this, Nat.ceil_sub_one]
        have := Nat.ceil_pos.2 hp
        omega
      · exact .inl ⟨r, if_neg h⟩) hstart
  refine ⟨s', es, ?_⟩
  obtain ⟨r, ⟨hr, hrt⟩, he⟩ := Loop.whileLoop_invariant _ (fun r => Between s.vertices D N 0 1 r ∧ r.time < tfinal + dt s N) (fun r r' hr h => by
    by_cases ht : r.time < tfinal
    · obtain ⟨r'', e, h1, h2⟩ := hstep r hr.1
      rw [if_pos ht, e, Outcome.map_ok] at h
      injection h with h
      injection h with h
      subst h
      exact ⟨h2, by rw [h1]; linarith⟩
    · rw [if_neg ht] at h
      injection h with h
      injection h) ⟨hstart, by rw [h0]; linarith⟩ es
  by_cases ht : r.time < tfinal
  · rw [if_pos ht] at he
    obtain ⟨_, _, h⟩ := Outcome.map_eq_ok.1 he
    cases h
  · rw [if_neg ht] at he
    injection he with he
    injection he with he
    subst he
    exact ⟨not_lt.1 ht, hrt, hr⟩

/-- Non-vacuity: the default values. -/
example (fuel : Nat) : ∃ s s', run exShift (fuel + 2) 1 s = .ok s' ∧ Between s.vertices 4 16 0 1 s' := by
  obtain ⟨_, s, _, h⟩ := run_partial (N := 16) (D := 4) (sh := exShift) exShift_total (by norm_num) (by norm_num) (by norm_num) one_pos
  obtain ⟨s', e, _, _, h'⟩ := h fuel
  exact ⟨s, s', e, h'⟩

/-! ### C107: mass -/

theorem before_of_follows {a : Fin 2} {i j : Index 2} (hi : i.Valid) (h : Follows True a i j) : before a j = i := by
  obtain ⟨h1, h2, h3⟩ := h
  have hv := hi a
  ext b
  · exact h1.symm
  · by_cases hb : b = a
    · subst hb
      show Function.update _ _ _ _ = _
      rw [Function.update_self, ← h1]
      rcases h3 with h3 | ⟨_, h3, h4⟩
      · rw [if_neg (by omega)]
        omega
      · rw [if_pos h4]
        omega
    · show Function.update _ _ _ _ = _
      rw [Function.update_of_ne hb]
      exact (h2 b hb).symm

theorem sum_steps (g : Nat → ℝ) (q : ℝ) {N : Nat} (hN : 1 ≤ N) :
    ∑ x ∈ Finset.range N, (g x - if x = 0 then q else g (x - 1)) = g (N - 1) - q := by
  obtain ⟨n, rfl⟩ : ∃ n, N = n + 1 := ⟨N - 1, by omega⟩
  clear hN
  induction n with
  | zero => simp
  | succ n ih =>
    rw [Finset.sum_range_succ, ih, if_neg (by omega)]
    simp

theorem sum_behind (a : Fin 2) (f q : Nat → Nat → ℝ) {N : Nat} (hN : 1 ≤ N) :
    ∑ x ∈ Finset.range N, ∑ y ∈ Finset.range N, (f x y - behind N a f q x y)
      = ∑ y ∈ Finset.range N, turn a f (N - 1) y - ∑ y ∈ Finset.range N, turn a q (N - 1) y := by
  fin_cases a
  · rw [Finset.sum_comm, ← Finset.sum_sub_distrib]
    exact Finset.sum_congr rfl fun y _ => sum_steps (fun x => f x y) (q (N - 1) y) hN
  · rw [← Finset.sum_sub_distrib]
    exact Finset.sum_congr rfl fun x _ => sum_steps (fun y => f x y) (q x (N - 1)) hN

/-- The last cells of the four blocks side by side. -/
theorem fine_last (a : Fin 2) (i : Index 2) (m : Bool) {y : Nat} (hy : y < N) :
    turn a (fineCell N f i) (2 * N - 1) (y + if m then N else 0) = turn a (f (i.child (corner a true m))) (N - 1) y := by
  have e1 : (2 * N - 1) % N = N - 1 := by
    rw [show 2 * N - 1 = N - 1 + N by omega, Nat.add_mod_right, Nat.mod_eq_of_lt (by omega)]
  have e2 : (y + if m then N else 0) % N = y := by
    cases m
    · simpa using Nat.mod_eq_of_lt hy
    · simpa using Nat.mod_eq_of_lt hy
  have e3 : N ≤ 2 * N - 1 := by omega
  fin_cases a
  · show fineCell N f i _ _ = _
    unfold fineCell
    rw [e1, e2, if_pos e3]
    cases m
    · rw [if_neg (by simpa using hy)]
      rfl
    · rw [if_pos (by simp)]
      rfl
  · show fineCell N f i _ _ = _
    unfold fineCell
    rw [e1, e2, if_pos e3]
    cases m
    · rw [if_neg (by simpa using hy)]
      rfl
    · rw [if_pos (by simp)]
      rfl

theorem sum_double (g : Nat → ℝ) (N : Nat) : ∑ y ∈ Finset.range (2 * N), g y = ∑ y ∈ Finset.range N, (g (2 * y) + g (2 * y + 1)) := by
  induction N with
  | zero => rfl
  | succ n ih => rw [show 2 * (n + 1) = 2 * n + 1 + 1 by ring, Finset.sum_range_succ, Finset.sum_range_succ, ih, Finset.sum_range_succ]; ring

theorem sum_halves (g : Nat → ℝ) (N : Nat) : ∑ y ∈ Finset.range (2 * N), g y = ∑ y ∈ Finset.range N, g y + ∑ y ∈ Finset.range N, g (y + N) := by
  rw [two_mul, Finset.sum_range_add]
  simp only [add_comm N]

theorem child_inj {i l : Index 2} {k m : Nat} (h : i.child k = l.child m) : i = l := by
  have h1 := congrArg Index.level h
  have h2 := fun b => congrFun (congrArg Index.coords h) b
  ext b
  · simpa [Index.child] using h1
  · have h3 : 2 * i.coords b + (k.testBit b).toNat = 2 * l.coords b + (m.testBit b).toNat := h2 b
    have := Bool.toNat_le (k.testBit b)
    have := Bool.toNat_le (m.testBit b)
    omega

/-- What comes in along axis `a`, all blocks taken together. -/
theorem axis_sum (hm : Mesh s D N) (a : Fin 2) (q : Index 2 → Nat → Nat → ℝ)
    (hq : ∀ i c, LeafAt s.vertices i c → ∃ j, j.Valid ∧ Follows True a j i ∧ ReadAt s.vertices N f j (q i)) :
    leafSum s.vertices (fun i _ => cellSize 1 N i * ∑ x ∈ Finset.range N, ∑ y ∈ Finset.range N, (f i x y - behind N a (f i) (q i) x y))
      = loss s N f a := by
  classical
  have hT := hm.shaped
  have hN := hT.pos
  set T := s.vertices with hTdef
  let U : Index 2 → ℝ := fun i => cellSize 1 N i * ∑ y ∈ Finset.range N, turn a (f i) (N - 1) y
  let L : Index 2 → ℝ := fun i => cellSize 1 N i * ∑ y ∈ Finset.range N, turn a (q i) (N - 1) y
  let L' : Index 2 → ℝ := fun j => if Divided T (before a j) then
    U ((before a j).child (corner a true false)) + U ((before a j).child (corner a true true)) else L j
  have half : ∀ (i : Index 2) (k : Nat), cellSize 1 N (i.child k) = cellSize 1 N i / 2 := fun i k => by
    unfold cellSize
    show 2 * 1 / (N : ℝ) / 2 ^ (i.level + 1) = _
    rw [pow_succ]
    field_simp
  have key : Matched True a T L' U := by
    refine ⟨fun i j b c hi hj hf => ?_, fun i j b c hi hj hf => ?_, fun i j b c hi hj hf => ?_⟩
    · show _ = if _ then _ else _
      rw [before_of_follows hi.valid hf, if_neg (fun h => by
        obtain ⟨d, hd⟩ := h 0
        exact not_node_of_parent_leaf hi _ hd)]
      obtain ⟨p, hpv, hpf, hr⟩ := hq j c hj
      obtain rfl : i = p := (before_of_follows hi.valid hf).symm.trans (before_of_follows hpv hpf)
      have hqi : ∀ x, x < N → ∀ y, y < N → q j x y = f i x y := by
        rcases hr with h | ⟨m, d, k, h, hm, _⟩ | ⟨h, _⟩
        · exact h.2
        · rw [hm] at hi
          exact absurd hi (not_node_of_parent_leaf h k)
        · obtain ⟨d, hd⟩ := h 0
          exact absurd hd (not_node_of_parent_leaf hi _)
      have hl : cellSize 1 N i = cellSize 1 N j := by unfold cellSize; rw [hf.1]
      show _ * _ = _ * _
      rw [hl]
      refine congrArg _ (Finset.sum_congr rfl fun y hy => ?_)
      rw [Finset.mem_range] at hy
      fin_cases a
      · exact (hqi _ (by omega) _ hy).symm
      · exact (hqi _ hy _ (by omega)).symm
    · have hleaf : ∀ k : Fin (2 ^ 2), LeafAt T (j.child k) (c k) := fun k => nodeAt_child hj k
      have side : ∀ m, L' (j.child (corner a false m)) = cellSize 1 N i / 2 * ∑ y ∈ Finset.range N, turn a (f i) (N - 1) ((y + if m then N else 0) / 2) := by
        intro m
        have hfol : Follows True a (i.child (corner a true m)) (j.child (corner a false m)) :=
          hf.child (corner_bit a true m) (corner_bit a false m) fun b hb => by rw [corner_other a _ _ b hb, corner_other a _ _ b hb]
        have hval : (i.child (corner a true m)).Valid := child_valid hi.valid _
        show (if _ then _ else _) = _
        rw [before_of_follows hval hfol, if_neg (fun h => by
          obtain ⟨d, hd⟩ := h 0
          obtain ⟨u, hu⟩ := nodeAt_of_inside hd (child_inside _ _)
          exact not_node_of_parent_leaf hi _ hu)]
        obtain ⟨p, hpv, hpf, hr⟩ := hq _ _ (hleaf (corner a false m))
        obtain rfl : i.child (corner a true m) = p := (before_of_follows hval hfol).symm.trans (before_of_follows hpv hpf)
        have hqi : ∀ x, x < N → ∀ y, y < N → q (j.child (corner a false m)) x y = f i ((x + (i.child (corner a true m)).coords 0 % 2 * N) / 2)
            ((y + (i.child (corner a true m)).coords 1 % 2 * N) / 2) := by
          rcases hr with ⟨⟨d, h⟩, _⟩ | ⟨l, d, k, h, hm, h2⟩ | ⟨h, _⟩
          · exact absurd h (not_node_of_parent_leaf hi _)
          · obtain rfl : i = l := child_inj hm
            exact h2
          · obtain ⟨d, hd⟩ := h 0
            obtain ⟨u, hu⟩ := nodeAt_of_inside hd (child_inside _ _)
            exact absurd hu (not_node_of_parent_leaf hi _)
        show _ * _ = _
        rw [half, show cellSize 1 N j = cellSize 1 N i by unfold cellSize; rw [hf.1]]
        refine congrArg _ (Finset.sum_congr rfl fun y hy => ?_)
        rw [Finset.mem_range] at hy
        have hb : ∀ b, (i.child (corner a true m)).coords b % 2 = ((corner a true m : Nat).testBit b).toNat := fun b => by
          show (2 * i.coords b + _) % 2 = _
          have := Bool.toNat_le ((corner a true m : Nat).testBit b)
          omega
        have ea : (N - 1 + 1 * N) / 2 = N - 1 := by omega
        have em : (m.toNat * N) = if m then N else 0 := by cases m <;> simp
        obtain rfl | rfl : a = 0 ∨ a = 1 := by fin_cases a <;> simp
        · show q _ _ _ = f i (N - 1) _
          rw [hqi _ (by omega) _ hy, hb, hb, corner_bit, corner_other 0 true m 1 (by decide), em]
          show f i ((N - 1 + 1 * N) / 2) _ = _
          rw [ea]
        · show q _ _ _ = f i _ (N - 1)
          rw [hqi _ hy _ (by omega), hb, hb, corner_bit, corner_other 1 true m 0 (by decide), em]
          show f i _ ((N - 1 + 1 * N) / 2) = _
          rw [ea]
      rw [side, side]
      show cellSize 1 N i * _ = _
      have h2 := sum_halves (fun y => turn a (f i) (N - 1) (y / 2)) N
      rw [sum_double] at h2
      have h3 : ∀ y, 2 * y / 2 = y := fun y => by omega
      have h4 : ∀ y, (2 * y + 1) / 2 = y := fun y => by omega
      simp only [h3, h4, ← two_mul, ← Finset.mul_sum] at h2
      simp only [Bool.false_eq_true, if_false, if_true, Nat.add_zero]
      rw [← mul_add, ← h2]
      ring
    · show _ = if _ then _ else _
      rw [before_of_follows hi.valid hf, if_pos (show Divided T i from fun k => ⟨_, nodeAt_child hi k⟩)]
  have h0 := key.total_wrap hT.balanced D hT.depth hT.small
  have e1 : leafSum T (fun i _ => cellSize 1 N i * ∑ x ∈ Finset.range N, ∑ y ∈ Finset.range N, (f i x y - behind N a (f i) (q i) x y))
      = leafSum T (fun i _ => U i - L' i) + leafSum T (fun i _ => L' i - L i) := by
    rw [← leafSum_add]
    refine leafSum_congr fun i c _ => ?_
    rw [sum_behind a _ _ hN]
    show _ = U i - L' i + (L' i - L i)
    show cellSize 1 N i * _ = _
    ring
  rw [e1, h0, zero_add]
  unfold loss
  refine leafSum_congr fun j c hj => ?_
  by_cases hd : Divided T (before a j)
  · obtain ⟨p, hpv, hpf, hr⟩ := hq j c hj
    have hp := before_of_follows hpv hpf
    rw [if_pos hd]
    show (if _ then _ else _) - _ = _
    rw [if_pos hd]
    rw [hp] at hd ⊢
    have hqi : ∀ x, x < N → ∀ y, y < N → q j x y = (fineCell N f p (2 * x) (2 * y) + fineCell N f p (2 * x + 1) (2 * y) + fineCell N f p (2 * x) (2 * y + 1)
        + fineCell N f p (2 * x + 1) (2 * y + 1)) / 4 := by
      rcases hr with ⟨⟨d, h⟩, _⟩ | ⟨m, d, k, h, hm, _⟩ | ⟨_, h⟩
      · obtain ⟨e, he⟩ := hd 0
        exact absurd he (not_node_of_parent_leaf h _)
      · obtain ⟨e, he⟩ := hd 0
        obtain ⟨u, hu⟩ := nodeAt_of_inside he (child_inside _ _)
        rw [hm] at hu
        exact absurd hu (not_node_of_parent_leaf h _)
      · exact h
    have hl : cellSize 1 N p = cellSize 1 N j := by unfold cellSize; rw [hpf.1]
    have hU : ∀ m, U (p.child (corner a true m)) = cellSize 1 N j / 2 * ∑ y ∈ Finset.range N, turn a (fineCell N f p) (2 * N - 1) (y + if m then N else 0) := by
      intro m
      show _ * _ = _
      rw [half, hl]
      refine congrArg _ (Finset.sum_congr rfl fun y hy => (fine_last a p m (Finset.mem_range.1 hy)).symm)
    have hL : L j = cellSize 1 N j / 4 * ∑ y ∈ Finset.range (2 * N), (turn a (fineCell N f p) (2 * N - 1) y + turn a (fineCell N f p) (2 * N - 2) y) := by
      show _ * _ = _
      rw [sum_double, Finset.mul_sum, Finset.mul_sum]
      refine Finset.sum_congr rfl fun y hy => ?_
      rw [Finset.mem_range] at hy
      have n1 : 2 * (N - 1) = 2 * N - 2 := by omega
      have n2 : 2 * N - 2 + 1 = 2 * N - 1 := by omega
      obtain rfl | rfl : a = 0 ∨ a = 1 := by fin_cases a <;> simp
      · show _ * q j (N - 1) y = _
        rw [hqi _ (by omega) _ hy, n1, n2]
        show _ = _ * (fineCell N f p _ _ + fineCell N f p _ _ + (fineCell N f p _ _ + fineCell N f p _ _))
        ring
      · show _ * q j y (N - 1) = _
        rw [hqi _ hy _ (by omega), n1, n2]
        show _ = _ * (fineCell N f p _ _ + fineCell N f p _ _ + (fineCell N f p _ _ + fineCell N f p _ _))
        ring
    have hh := sum_halves (turn a (fineCell N f p) (2 * N - 1)) N
    rw [hU, hU, hL]
    simp only [Bool.false_eq_true, if_false, if_true, Nat.add_zero]
    rw [← mul_add, ← hh, Finset.sum_add_distrib]
    have hR : ∑ y ∈ Finset.range (2 * N), lastStep N a (fineCell N f p) y
        = ∑ y ∈ Finset.range (2 * N), turn a (fineCell N f p) (2 * N - 1) y - ∑ y ∈ Finset.range (2 * N), turn a (fineCell N f p) (2 * N - 2) y := by
      rw [← Finset.sum_sub_distrib]
      refine Finset.sum_congr rfl fun y _ => ?_
      obtain rfl | rfl : a = 0 ∨ a = 1 := by fin_cases a <;> simp
      · rfl
      · rfl
    rw [hR]
    ring
  · show (if _ then _ else _) - _ = _
    rw [if_neg hd, if_neg hd, sub_self]

/-- **C107**, what holds on all balanced meshes: mass gets lost at the faces where the flow goes from finer to coarser cells, in proportion to the difference
of the values in the two layers of cells before the face, and nowhere else. -/
theorem mass_step_partial (hs : TotalShift sh) (hm : Mesh s D N) (hf : Blocks s.vertices s.conserved N N f) (fuel : Nat) :
    ∃ s' g, nextSolution sh (fuel + 2) s = .ok s' ∧ s'.vertices = s.vertices ∧ Blocks s.vertices s'.conserved N N g ∧
      mass s N g = mass s N f - dt s N / 2 * (loss s N f 0 + loss s N f 1) := by
  obtain ⟨s', q, e, h1, _, _, h4, h5⟩ := step_ok hs hm hf fuel
  refine ⟨s', _, e, h1, h5, ?_⟩
  have hN : (0 : ℝ) < N := by exact_mod_cast hm.shaped.pos
  rw [← axis_sum hm 0 (q 0) (h4 0), ← axis_sum hm 1 (q 1) (h4 1), ← leafSum_add]
  have hc := leafSum_hom (AddMonoidHom.mulLeft (dt s N / 2)) (fun i (_ : Arr 2 (ℝ × ℝ)) =>
    cellSize 1 N i * ∑ x ∈ Finset.range N, ∑ y ∈ Finset.range N, (f i x y - behind N 0 (f i) (q 0 i) x y) +
    cellSize 1 N i * ∑ x ∈ Finset.range N, ∑ y ∈ Finset.range N, (f i x y - behind N 1 (f i) (q 1 i) x y)) s.vertices
  simp only [AddMonoidHom.coe_mulLeft] at hc
  rw [← hc]
  unfold mass cellSum
  rw [← leafSum_sub]
  refine leafSum_congr fun i c _ => ?_
  have hh : 0 < cellSize 1 N i := by
    unfold cellSize
    positivity
  rw [← mul_add, ← Finset.sum_add_distrib, ← mul_assoc, Finset.mul_sum, ← Finset.sum_sub_distrib]
  refine Finset.sum_congr rfl fun x _ => ?_
  rw [← Finset.sum_add_distrib, Finset.mul_sum, ← Finset.sum_sub_distrib]
  refine Finset.sum_congr rfl fun y _ => ?_
  beta_reduce
  unfold courant
  generalize f i x y - behind N 0 (f i) (q 0 i) x y = p
  generalize f i x y - behind N 1 (f i) (q 1 i) x y = r
  generalize cellSize 1 N i = h at hh
  field_simp

/-- **C107**, on a mesh without refinement: the mass is conserved. -/
theorem mass_uniform_partial (hs : TotalShift sh) (hm : Mesh s D N) (hf : Blocks s.vertices s.conserved N N f)
    (hu : ∀ i j c d, LeafAt s.vertices i c → LeafAt s.vertices j d → i.level = j.level) (fuel : Nat) :
    ∃ s' g, nextSolution sh (fuel + 2) s = .ok s' ∧ s'.vertices = s.vertices ∧ Blocks s.vertices s'.conserved N N g ∧
      mass s N g = mass s N f := by
  obtain ⟨s', g, e, h1, h2, h3⟩ := mass_step_partial hs hm hf fuel
  refine ⟨s', g, e, h1, h2, ?_⟩
  have hz : ∀ a, loss s N f a = 0 := by
    intro a
    refine leafSumAt_zero (.here s.vertices) fun j c hj => ?_
    refine if_neg fun h => ?_
    obtain ⟨d, hd⟩ := h 0
    have := hu _ _ _ _ hj hd
    simp only [before, Index.child] at this
    omega
  rw [h3, hz, hz]
  ring

/-- The state at the start of a run with `depth=0` has such a mesh: a single block. -/
example (fuel : Nat) : ∃ s s' f g, Mesh s 0 16 ∧ Blocks s.vertices s.conserved 16 16 f ∧ nextSolution exShift (fuel + 2) s = .ok s' ∧
    Blocks s.vertices s'.conserved 16 16 g ∧ mass s 16 g = mass s 16 f := by
  obtain ⟨_, s, _, _, _, hm, _, hf⟩ := start_ok (N := 16) (D := 0) (sh := exShift) exShift_total (by norm_num) (by norm_num) (by norm_num)
  obtain ⟨s', g, e, _, hg, h⟩ := mass_uniform_partial exShift_total hm hf (fun i j c d hi hj => by
    rw [Nat.le_zero.1 (hm.shaped.depth i c hi), Nat.le_zero.1 (hm.shaped.depth j d hj)]) fuel
  exact ⟨s, s', _, g, hm, hf, e, hg, h⟩

/-- A square of which one quarter is divided once more. -/
def exTree {α : Type} (g : Index 2 → α) : Verif.Tree.Tree 2 α :=
  .node fun k => if k = 0 then .node fun m => .leaf (g ((Index.root.child 0).child m)) else .leaf (g (Index.root.child k))

theorem exTree_coarse {α : Type} (g : Index 2 → α) {k : Fin (2 ^ 2)} (hk : k ≠ 0) : LeafAt (exTree g) (Index.root.child k) (g (Index.root.child k)) := by
  have h := nodeAt_child (.here (exTree g)) k
  rwa [if_neg hk] at h

theorem exTree_node {α : Type} (g : Index 2 → α) :
    NodeAt (exTree g) (Index.root.child 0) (.node fun m => .leaf (g ((Index.root.child 0).child m))) := nodeAt_child (.here (exTree g)) 0

theorem exTree_fine {α : Type} (g : Index 2 → α) (m : Fin (2 ^ 2)) :
    LeafAt (exTree g) ((Index.root.child 0).child m) (g ((Index.root.child 0).child m)) := nodeAt_child (exTree_node g) m

theorem exTree_leaf {α : Type} {g : Index 2 → α} {i : Index 2} {a : α} (h : LeafAt (exTree g) i a) :
    a = g i ∧ ((∃ m : Fin (2 ^ 2), i = (Index.root.child 0).child m) ∨ ∃ k : Fin (2 ^ 2), k ≠ 0 ∧ i = Index.root.child k) := by
  obtain ⟨k, j, rfl, q⟩ := leafAt_node.1 (show LeafAt (.node _) i a from h)
  clear h
  by_cases hk : k = 0
  · subst hk
    rw [if_pos rfl] at q
    obtain ⟨m, l, rfl, r⟩ := leafAt_node.1 q
    clear q
    obtain ⟨rfl, rfl⟩ := leafAt_leaf.1 r
    clear r
    have e : Index.descend ((0 : Fin (2 ^ 2)) : Nat) (Index.descend m Index.root) = ((Index.root : Index 2).child 0).child m := by
      revert m
      decide
    exact ⟨congrArg g e.symm, .inl ⟨m, e⟩⟩
  · rw [if_neg hk] at q
    obtain ⟨rfl, rfl⟩ := leafAt_leaf.1 q
    clear q
    have e : Index.descend k Index.root = (Index.root : Index 2).child k := by
      clear hk
      revert k
      decide
    exact ⟨congrArg g e.symm, .inr ⟨k, hk, e⟩⟩

theorem exTree_shape {α β : Type} (g : Index 2 → α) (h : Index 2 → β) : SameShape (exTree g) (exTree h) := by
  have leaf : ∀ (a : α) (b : β), SameShape (R := 2) (.leaf a) (.leaf b) := fun a b i =>
    ⟨fun ⟨_, hi⟩ => ⟨b, (leafAt_leaf.1 hi).1 ▸ .here _⟩, fun ⟨_, hi⟩ => ⟨a, (leafAt_leaf.1 hi).1 ▸ .here _⟩⟩
  refine sameShape_node.2 fun k => ?_
  by_cases hk : k = 0
  · rw [if_pos hk, if_pos hk]
    exact sameShape_node.2 fun m => leaf _ _
  · rw [if_neg hk, if_neg hk]
    exact leaf _ _

theorem exTree_divided {α : Type} (g : Index 2 → α) (i : Index 2) : Divided (exTree g) i ↔ i = Index.root.child 0 := by
  constructor
  · intro h
    obtain ⟨c, hc⟩ := h 0
    rcases (exTree_leaf hc).2 with ⟨m, e⟩ | ⟨k, hk, e⟩
    · exact child_inj e
    · obtain rfl := child_inj e
      revert k
      decide
  · rintro rfl k
    exact ⟨_, exTree_fine g k⟩

theorem exTree_sum {α : Type} (g : Index 2 → α) (F : Index 2 → α → ℝ) : leafSum (exTree g) F =
    (∑ m : Fin (2 ^ 2), F ((Index.root.child 0).child m) (g ((Index.root.child 0).child m))) + F (Index.root.child 1) (g (Index.root.child 1))
      + F (Index.root.child 2) (g (Index.root.child 2)) + F (Index.root.child 3) (g (Index.root.child 3)) :=
  Fin.sum_univ_four fun k : Fin 4 => leafSumAt F (if k = 0 then .node fun m => .leaf (g ((Index.root.child 0).child m)) else .leaf (g (Index.root.child k)))
    (Index.root.child k)

/-- A unit of gas in the last cell of the divided quarter. -/
def exValue (i : Index 2) (_ _ : Nat) : ℝ := if i = (Index.root.child 0).child 3 then 1 else 0

/-- The vertices of one cell in each block. -/
noncomputable def exVertices : Quad (ℝ × ℝ) :=
  exTree fun i => ⟨![2, 2], fun p => .ok (coordinate 1 1 i 0 (p 0), coordinate 1 1 i 1 (p 1))⟩

/-- The values in these cells. -/
noncomputable def exConserved : Quad ℝ := exTree fun i => ⟨![1, 1], fun _ => .ok (exValue i 0 0)⟩

/-- The state of the two. -/
noncomputable def exState : Solution := ⟨0, 0, exVertices, exConserved⟩

theorem exState_mesh : Mesh exState 2 1 := by
  have lv : ∀ i a, LeafAt exVertices i a → 1 ≤ i.level ∧ i.level ≤ 2 := by
    intro i a h
    rcases (exTree_leaf h).2 with ⟨m, rfl⟩ | ⟨k, _, rfl⟩ <;> simp [Index.child, Index.root]
  refine ⟨⟨fun i a h => (lv i a h).2, by norm_num, fun i a h => ?_, le_rfl, by norm_num⟩, fun _ => Iff.rfl, fun i B hi => ?_⟩
  · rintro ⟨j, _, _, l, b, hb, _, hlt⟩
    have := (lv i a h).1
    have := (lv l b hb).2
    omega
  · rw [(exTree_leaf (show LeafAt exVertices i B from hi)).1]
    exact ⟨rfl, rfl, fun x _ y _ => rfl⟩

theorem exState_blocks : Blocks exState.vertices exState.conserved 1 1 exValue := by
  refine ⟨show SameShape exConserved exVertices from exTree_shape _ _, fun i B hi => ?_⟩
  rw [(exTree_leaf (show LeafAt exConserved i B from hi)).1]
  exact ⟨rfl, rfl, fun x _ y _ => rfl⟩

theorem exFine : fineCell 1 exValue (Index.root.child 0) 0 0 = 0 ∧ fineCell 1 exValue (Index.root.child 0) 1 0 = 0 ∧
    fineCell 1 exValue (Index.root.child 0) 0 1 = 0 ∧ fineCell 1 exValue (Index.root.child 0) 1 1 = 1 := by
  refine ⟨?_, ?_, ?_, ?_⟩
  · show exValue ((Index.root.child 0).child 0) 0 0 = 0
    exact if_neg (by decide)
  · show exValue ((Index.root.child 0).child 1) 0 0 = 0
    exact if_neg (by decide)
  · show exValue ((Index.root.child 0).child 2) 0 0 = 0
    exact if_neg (by decide)
  · show exValue ((Index.root.child 0).child 3) 0 0 = 1
    exact if_pos (by decide)

open Classical in
/-- VIOLATION of **C107**: on a refined mesh a step does not conserve the mass. -/
theorem mass_violated (hs : TotalShift sh) (fuel : Nat) :
    ∃ s' g, nextSolution sh (fuel + 2) exState = .ok s' ∧ s'.vertices = exState.vertices ∧ Blocks exState.vertices s'.conserved 1 1 g ∧
      mass exState 1 g < mass exState 1 exValue := by
  obtain ⟨s', g, e, h1, h2, h3⟩ := mass_step_partial hs exState_mesh exState_blocks fuel
  refine ⟨s', g, e, h1, h2, ?_⟩
  have hd := dt_pos exState 1
  have hl : ∀ a, loss exState 1 exValue a = 1 / 4 := by
    intro a
    have hdiv : ∀ i, Divided exState.vertices i ↔ i = Index.root.child 0 := fun i => show Divided exVertices i ↔ _ from exTree_divided _ i
    have h0 : ∀ j, before a j ≠ Index.root.child 0 → (if Divided exState.vertices (before a j) then
      cellSize 1 1 j / 4 * ∑ y ∈ Finset.range (2 * 1), lastStep 1 a (fineCell 1 exValue (before a j)) y else 0) = 0 := fun j h =>
      if_neg fun h' => h ((hdiv _).1 h')
    have h1 : ∀ j, before a j = Index.root.child 0 → (if Divided exState.vertices (before a j) then
      cellSize 1 1 j / 4 * ∑ y ∈ Finset.range (2 * 1), lastStep 1 a (fineCell 1 exValue (before a j)) y else 0)
        = cellSize 1 1 j / 4 * (lastStep 1 a (fineCell 1 exValue (Index.root.child 0)) 0 + lastStep 1 a (fineCell 1 exValue (Index.root.child 0)) 1) :=
      fun j h => by rw [if_pos ((hdiv _).2 h), h, Finset.sum_range_succ, Finset.sum_range_one]
    show leafSum exVertices _ = _
    unfold exVertices
    refine (exTree_sum _ _).trans ?_
    beta_reduce
    rw [Finset.sum_eq_zero fun (m : Fin (2 ^ 2)) _ => h0 ((Index.root.child 0).child m) (by clear h0 h1 h3; revert a m; decide)]
    have size : ∀ k, cellSize 1 1 (Index.root.child k) = 1 := fun k => by
      show 2 * 1 / ((1 : Nat) : ℝ) / 2 ^ (0 + 1) = 1
      norm_num
    obtain rfl | rfl : a = 0 ∨ a = 1 := by fin_cases a <;> simp
    · rw [h1 (Index.root.child 1) (by decide), h0 (Index.root.child 2) (by decide), h0 (Index.root.child 3) (by decide), size]
      simp only [lastStep, Nat.mul_one, Nat.add_one_sub_one, Nat.sub_self, exFine.1, exFine.2.1, exFine.2.2.1, exFine.2.2.2]
      norm_num
    · rw [h0 (Index.root.child 1) (by decide), h1 (Index.root.child 2) (by decide), h0 (Index.root.child 3) (by decide), size]
      simp only [lastStep, Nat.mul_one, Nat.add_one_sub_one, Nat.sub_self, exFine.1, exFine.2.1, exFine.2.2.1, exFine.2.2.2]
      norm_num
  rw [h3, hl, hl]
  linarith

/-- The step of the state at the start of a run with blocks at three levels. -/
example (fuel : Nat) : ∃ s s' f g, Mesh s 4 16 ∧ Blocks s.vertices s.conserved 16 16 f ∧ nextSolution exShift (fuel + 2) s = .ok s' ∧
    Blocks s.vertices s'.conserved 16 16 g ∧ mass s 16 g = mass s 16 f - dt s 16 / 2 * (loss s 16 f 0 + loss s 16 f 1) := by
  obtain ⟨_, s, _, _, _, hm, _, hf⟩ := start_ok (N := 16) (D := 4) (sh := exShift) exShift_total (by norm_num) (by norm_num) (by norm_num)
  obtain ⟨s', g, e, _, hg, h⟩ := mass_step_partial exShift_total hm hf fuel
  exact ⟨s, s', _, g, hm, hf, e, hg, h⟩

end Verif.AmrSand
