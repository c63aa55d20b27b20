import Verif.Spec.AmrSand
import Verif.Lemmas.BinarySetup

/-!
# The steps of the sandbox for adaptive meshes, block by block
-/

namespace Verif.AmrSand

open Verif Verif.Nd Verif.Tree Verif.Binary

variable {sh : Nat → Outcome Nat}

/-- Two trees that are divided as `T`, combined block by block. -/
theorem pairM_ok {α β γ δ : Type} {T : Verif.Tree.Tree 2 δ} {t : Quad α} {u : Quad β} {P : Index 2 → Arr 2 α → Prop} {Q : Index 2 → Arr 2 β → Prop}
    {S : Index 2 → Arr 2 γ → Prop} {F : Arr 2 α × Arr 2 β → Outcome (Arr 2 γ)} (ht : SameShape t T) (hu : SameShape u T)
    (hP : ∀ i B, LeafAt t i B → P i B) (hQ : ∀ i B, LeafAt u i B → Q i B)
    (h : ∀ i B C, (∃ c, LeafAt T i c) → P i B → Q i C → ∃ D, F (B, C) = .ok D ∧ S i D) :
    ∃ p r, t.pair u = .ok p ∧ Tree.mapM F p = .ok r ∧ SameShape r T ∧ ∀ i D, LeafAt r i D → S i D := by
  obtain ⟨p, e, hsh, hl⟩ := pair_ok (ht.trans hu.symm)
  obtain ⟨r, _, e2, hsh2, hr⟩ := mapM_choose (γ := Unit) (P := fun i D _ => S i D) (f := F) p fun i B hi => by
    obtain ⟨h1, h2⟩ := hl i B hi
    obtain ⟨D, h3, h4⟩ := h i B.1 B.2 ((ht i).1 ⟨_, h1⟩) (hP i _ h1) (hQ i _ h2)
    exact ⟨D, (), h3, h4⟩
  exact ⟨p, r, e, e2, hsh2.trans (hsh.trans ht), hr⟩

theorem oneM_ok {α γ δ : Type} {T : Verif.Tree.Tree 2 δ} {t : Quad α} {P : Index 2 → Arr 2 α → Prop}
    {S : Index 2 → Arr 2 γ → Prop} {F : Arr 2 α → Outcome (Arr 2 γ)} (ht : SameShape t T) (hP : ∀ i B, LeafAt t i B → P i B)
    (h : ∀ i B, (∃ c, LeafAt T i c) → P i B → ∃ D, F B = .ok D ∧ S i D) :
    ∃ r, Tree.mapM F t = .ok r ∧ SameShape r T ∧ ∀ i D, LeafAt r i D → S i D := by
  obtain ⟨r, _, e2, hsh2, hr⟩ := mapM_choose (γ := Unit) (P := fun i D _ => S i D) (f := F) t fun i B hi => by
    obtain ⟨D, h3, h4⟩ := h i B ((ht i).1 ⟨_, hi⟩) (hP i _ hi)
    exact ⟨D, (), h3, h4⟩
  exact ⟨r, e2, hsh2.trans ht, hr⟩

theorem toIntegral_two (b : Verif.Seq.Seq 2 Bool) : toIntegral b = (if b 0 then 1 else 0) + if b 1 then 2 else 0 := by
  unfold toIntegral
  rcases h0 : b 0 <;> rcases h1 : b 1 <;> simp [Seq.sum, Fin.foldl_succ, h0, h1]

section
variable {β : Type} {T : Verif.Tree.Tree 2 β} {D N : Nat}

/-- The block at a leaf or next to one. -/
theorem read_ok (hs : TotalShift sh) (hT : Shaped T D N) {t : Quad ℝ} {f : Index 2 → Nat → Nat → ℝ} (hf : Blocks T t N N f) (fuel : Nat)
    {i j : Index 2} {b : Arr 2 ℝ} (hi : LeafAt t i b) (hj : j = i ∨ Neighbour i j ∧ j.Valid) :
    ∃ B q, getCellBlock sh ℝ t (fuel + 2) j = .ok B ∧ Grid B N N q ∧ ReadAt T N f j q := by
  have hD := hT.depth.sameShape hf.1
  have hb := hT.balanced.sameShape hf.1
  have h30 := hT.small
  have hil := hD i b hi
  have hN := hT.pos
  have hjl : j.level = i.level := by
    rcases hj with rfl | h
    · rfl
    · exact h.1.1.symm
  have hjv : j.Valid := by
    rcases hj with rfl | h
    · exact hi.valid
    · exact h.2
  have hs1 : ∀ a, 1 ≤ (![N, N] : Ix 2) a := by
    intro a; match a with
    | 0 => exact hN
    | 1 => exact hN
  have hc : count (![N, N] : Ix 2) < 2 ^ 31 := by rw [count_pair]; exact hT.of_le (by omega) (by omega)
  rcases neighbour_node hb hi (by omega) hj with ⟨c, h⟩ | ⟨c, n, h, hjn, h0⟩ | ⟨c, h⟩
  · obtain ⟨B, e, d⟩ := get_cell_block_leaf (R := 1) (k := ℝ) hs.1 t j (by omega) c h ![N, N] _ hs1 hc (grid_iff.1 (hf.2 j c h)) (fuel + 1)
    exact ⟨B, _, e, Grid.of_denotes d, .inl ⟨(hf.1 j).1 ⟨c, h⟩, fun _ _ _ _ => rfl⟩⟩
  · obtain ⟨B, e, d⟩ := get_cell_block_coarser (R := 1) (k := ℝ) hs.1 t j (by omega) h0 hjv c h ![N, N] _ hs1 hc (grid_iff.1 (hf.2 _ c h)) (fuel + 1)
    obtain ⟨c', hc'⟩ := (hf.1 _).1 ⟨c, h⟩
    exact ⟨B, _, e, Grid.of_denotes d, .inr (.inl ⟨_, c', n, hc', hjn, fun x _ y _ => rfl⟩)⟩
  · have hleaf : ∀ k : Fin (2 ^ 2), LeafAt t (j.child k) (c k) := fun k => nodeAt_child h k
    obtain ⟨B, e, d⟩ := get_cell_block_finer_partial (R := 1) (k := ℝ) hs t D hD h30 j c h ![N, N] (fun k p => f (j.child k) (p 0) (p 1)) hs1 hc
      (fun k => grid_iff.1 (hf.2 _ _ (hleaf k))) fuel
    refine ⟨B, _, e, Grid.of_denotes d, .inr (.inr ⟨fun k => (hf.1 _).1 ⟨_, hleaf k⟩, fun x _ y _ => ?_⟩)⟩
    have key : ∀ n : Nat, f (j.child (toIntegral fun a : Fin 2 => decide ((![N, N] : Ix 2) a ≤ 2 * (![x, y] : Ix 2) a + (n.testBit a).toNat)))
        ((2 * x + (n.testBit 0).toNat) % N) ((2 * y + (n.testBit 1).toNat) % N) = fineCell N f j (2 * x + (n.testBit 0).toNat) (2 * y + (n.testBit 1).toNat) := by
      intro n
      unfold fineCell
      refine congrArg (fun k => f (j.child k) _ _) ?_
      rw [toIntegral_two]
      simp only [decide_eq_true_eq]
      rfl
    have h4 : ∀ F : Nat → ℝ, ∑ n ∈ Finset.range (2 ^ (1 + 1)), F n = F 0 + F 1 + F 2 + F 3 := fun F => by
      simp only [Nat.reduceAdd, Nat.reducePow, Finset.sum_range_succ, Finset.sum_range_zero, zero_add]
    refine (congrArg _ (Finset.sum_congr rfl fun n _ => key n)).trans ?_
    rw [h4, smul_eq_mul]
    show ((2 : ℝ)⁻¹) ^ 2 * (fineCell N f j (2 * x) (2 * y) + fineCell N f j (2 * x + 1) (2 * y) + fineCell N f j (2 * x) (2 * y + 1)
      + fineCell N f j (2 * x + 1) (2 * y + 1)) = _
    ring

theorem extendBlock_ok (hs : TotalShift sh) (hT : Shaped T D N) {t : Quad ℝ} {f : Index 2 → Nat → Nat → ℝ} (hf : Blocks T t N N f)
    (a : Fin 2) (fuel : Nat) (i : Index 2) (b : Arr 2 ℝ) (hi : LeafAt t i b) :
    ∃ (B : Arr 2 ℝ) (q : Nat → Nat → ℝ), extendBlock sh (fuel + 2) t a i = .ok B ∧
      (∃ g, Along a B (N + 2) N g ∧ (∀ y, y < N → g 0 y = turn a q (N - 1) y) ∧ ∀ x, x < N → ∀ y, y < N → g (x + 1) y = turn a (f i) x y) ∧
      ∃ j, j.Valid ∧ Follows True a j i ∧ ReadAt T N f j q := by
  have hN := hT.pos
  have hlt := hT.lt
  have hlev := hT.depth.sameShape hf.1 i b hi
  have h30 := hT.small
  obtain ⟨n, en, hnv, hn⟩ := nextOn_follows hs.1 hi.valid (by omega) a
  obtain ⟨p, ep, hpv, hp⟩ := prevOn_follows hs.1 hi.valid (by omega) a
  obtain ⟨C, c, eC, hC, hc⟩ := read_ok hs hT hf fuel hi (.inl rfl)
  obtain ⟨P, q, eP, hP, hq⟩ := read_ok hs hT hf fuel hi (.inr ⟨(hp.neighbour hi.valid).symm, hpv⟩)
  obtain ⟨Q, r, eQ, hQ, hr⟩ := read_ok hs hT hf fuel hi (.inr ⟨hn.neighbour hnv, hnv⟩)
  obtain ⟨L, eL, hL⟩ := (along_turn (a := a).2 hP).selectFinal (l := 1) hN (by omega) (by omega)
  obtain ⟨R, eR, hR⟩ := (along_turn (a := a).2 hQ).selectFirst (l := 1) hN (by omega) (by omega)
  obtain ⟨C1, e1, h1⟩ := Along.concat hL (along_turn (a := a).2 hC) (by omega)
  obtain ⟨C2, e2, h2⟩ := Along.concat h1 hR (by omega)
  rw [show 1 + N + 1 = N + 2 by omega] at h2
  refine ⟨C2, q, ?_, ⟨_, h2, fun y hy => ?_, fun x hx y hy => ?_⟩, p, hpv, hp, hq⟩
  · unfold extendBlock
    rw [eC, Outcome.bind_ok, ep, Outcome.bind_ok, eP, Outcome.bind_ok, eL, Outcome.bind_ok, en, Outcome.bind_ok, eQ, Outcome.bind_ok, eR,
      Outcome.bind_ok, e1, Outcome.bind_ok, e2]
  · rw [if_pos (by omega), if_pos (by omega), Nat.add_zero]
  · rw [if_pos (by omega), if_neg (by omega), Nat.add_sub_cancel]
    have hci : ∀ x, x < N → ∀ y, y < N → c x y = f i x y := by
      obtain ⟨ci, hci⟩ := (hf.1 i).1 ⟨b, hi⟩
      rcases hc with h | ⟨m, d, k, h, hm, _⟩ | ⟨h, _⟩
      · exact h.2
      · rw [hm] at hci
        exact absurd hci (not_node_of_parent_leaf h k)
      · obtain ⟨d, hd⟩ := h 0
        exact absurd hd (not_node_of_parent_leaf hci _)
    fin_cases a
    · exact hci x hx y hy
    · exact hci y hy x hx

theorem flux_ok {a : Fin 2} {B : Arr 2 ℝ} {g : Nat → Nat → ℝ} (hlt : N + 2 < 2 ^ 31) (h : Along a B (N + 2) N g) :
    ∃ F, flux a B = .ok F ∧ Along a F (N + 1) N (fun x y => g x y * (1 / 2)) := by
  obtain ⟨F, e, hF⟩ := (h.map (· * (1 / 2))).dropFinal (by omega) (by omega)
  exact ⟨F, e, hF⟩

theorem spacing_ok {a : Fin 2} {B : Arr 2 (ℝ × ℝ)} {i : Index 2} (hN : 1 ≤ N) (hb : (N + 2) * (N + 2) < 2 ^ 31) (hlt : N + 2 < 2 ^ 31)
    (h : Grid B (N + 1) (N + 1) fun x y => (coordinate 1 N i 0 x, coordinate 1 N i 1 y)) :
    ∃ S, spacing (other a) B = .ok S ∧ Along a S (N + 1) N (fun _ _ => cellSize 1 N i) := by
  have hm : Along (other a) (B.map (component (other a))) (N + 1) (N + 1) fun x _ => coordinate 1 N i (other a) x := by
    fin_cases a
    · exact Grid.map (f := fun x y => (coordinate 1 N i 0 x, coordinate 1 N i 1 y)) h _
    · exact Grid.map h _
  obtain ⟨S, e, hS⟩ := hm.difference (by omega) (by omega)
  obtain ⟨E, e2, hE⟩ := hS.evaluate hN (by omega) (by nlinarith)
  refine ⟨E, by unfold spacing; rw [e, Outcome.bind_ok, e2], ?_⟩
  have h3 := hE.swap
  rw [show other (other a) = a by fin_cases a <;> rfl] at h3
  exact h3.congr rfl rfl fun x _ y _ => coordinate_step 1 N i (other a) y

theorem areaFromVertices_ok {B : Arr 2 (ℝ × ℝ)} {i : Index 2} (hN : 1 ≤ N) (hb : (N + 2) * (N + 2) < 2 ^ 31)
    (h : Grid B (N + 1) (N + 1) fun x y => (coordinate 1 N i 0 x, coordinate 1 N i 1 y)) :
    ∃ S, areaFromVertices B = .ok S ∧ Grid S N N (fun _ _ => cellSize 1 N i ^ 2) := areas_ok hN hb h

theorem along_behind (a : Fin 2) (f q : Nat → Nat → ℝ) (N x y : Nat) :
    turn a (behind N a f q) x y = if x = 0 then turn a q (N - 1) y else turn a f (x - 1) y := by
  fin_cases a <;> rfl

end

theorem inflow_ok (hs : TotalShift sh) {s : Solution} {D N : Nat} (hm : Mesh s D N) {f : Index 2 → Nat → Nat → ℝ}
    (hf : Blocks s.vertices s.conserved N N f) (fuel : Nat) (a : Fin 2) :
    ∃ (u : Quad ℝ) (q : Index 2 → Nat → Nat → ℝ), inflow sh (fuel + 2) s a = .ok u ∧
      (∀ i c, LeafAt s.vertices i c → ∃ j, j.Valid ∧ Follows True a j i ∧ ReadAt s.vertices N f j (q i)) ∧
      Blocks s.vertices u N N fun i x y => -(cellSize 1 N i / 2 * (f i x y - behind N a (f i) (q i) x y)) := by
  have hT := hm.shaped
  have hN := hT.pos
  have hlt := hT.lt
  obtain ⟨E, q, e1, s1, h1⟩ := mapIndexes_choose (f := extendBlock sh (fuel + 2) s.conserved a) (P := fun i B (q : Nat → Nat → ℝ) =>
      (∃ g, Along a B (N + 2) N g ∧ (∀ y, y < N → g 0 y = turn a q (N - 1) y) ∧ ∀ x, x < N → ∀ y, y < N → g (x + 1) y = turn a (f i) x y) ∧
      ∃ j, j.Valid ∧ Follows True a j i ∧ ReadAt s.vertices N f j q) s.conserved D (hT.depth.sameShape hf.1) (by have := hT.small; omega)
    (fun i b hi => extendBlock_ok hs hT hf a fuel i b hi)
  obtain ⟨F, e2, s2, h2⟩ := oneM_ok (F := flux a) (S := fun i B => Along a B (N + 1) N fun x y =>
      (if x = 0 then turn a (q i) (N - 1) y else turn a (f i) (x - 1) y) * (1 / 2)) (s1.trans hf.1) (fun i B hi => (h1 i B hi).2.1)
    fun i B _ ⟨g, hg, g0, g1⟩ => by
      obtain ⟨F, e, hF⟩ := flux_ok hlt hg
      refine ⟨F, e, hF.congr rfl rfl fun x hx y hy => ?_⟩
      rcases x with _ | x
      · rw [g0 y hy, if_pos rfl]
      · rw [g1 x (by omega) y hy, if_neg (by omega), Nat.add_sub_cancel]
  obtain ⟨S, e3, s3, h3⟩ := oneM_ok (F := spacing (other a)) (S := fun i B => Along a B (N + 1) N fun _ _ => cellSize 1 N i)
    hm.vertices.1 hm.vertices.2 fun i B _ h => spacing_ok hN hT.bound hlt h
  obtain ⟨P, G, e4, e5, s5, h5⟩ := pairM_ok (F := fun p => binaryOp (· * ·) p.1 p.2) (S := fun i B => Along a B (N + 1) N fun x y =>
      (if x = 0 then turn a (q i) (N - 1) y else turn a (f i) (x - 1) y) * (1 / 2) * cellSize 1 N i) s2 s3 h2 h3
    fun i B C _ hB hC => hB.binaryOp hC (· * ·)
  obtain ⟨u, e6, s6, h6⟩ := oneM_ok (F := difference a) (S := fun i B => Along a B N N fun x y =>
      cellSize 1 N i / 2 * (turn a (f i) x y - turn a (behind N a (f i) (q i)) x y)) s5 h5
    fun i B _ hB => by
      obtain ⟨u, e, hu⟩ := hB.difference (by omega) (by omega)
      refine ⟨u, e, hu.congr rfl rfl fun x hx y hy => ?_⟩
      rw [if_neg (by omega), Nat.add_sub_cancel, along_behind]
      ring
  refine ⟨u.map fun A => A.map (-·), q, ?_, fun i c hi => ?_, (sameShape_map u _).trans s6, fun i B hi => ?_⟩
  · unfold inflow extend
    rw [e1, Outcome.bind_ok, e2, Outcome.bind_ok, e3, Outcome.bind_ok, e4, Outcome.bind_ok, e5, Outcome.bind_ok, e6, Outcome.map_ok]
  · obtain ⟨B, hB⟩ := ((s1.trans hf.1) i).2 ⟨c, hi⟩
    exact (h1 i B hB).2.2
  · obtain ⟨A, hA, rfl⟩ := leafAt_map.1 hi
    refine Grid.map (f := fun x y => cellSize 1 N i / 2 * (f i x y - behind N a (f i) (q i) x y)) ?_ _
    refine along_turn (a := a).1 ((h6 i A hA).congr rfl rfl fun x _ y _ => ?_)
    fin_cases a <;> rfl

theorem timeStep_ok (hs : TotalShift sh) {s : Solution} {D N : Nat} (hm : Mesh s D N) : timeStep sh s = .ok (dt s N) := by
  have hfront : s.vertices.front ∈ leaves s.vertices := by
    have h := (tree_reductions (β := ℝ) s.vertices).2.1
    rw [sink_eq_leaves] at h
    exact List.mem_of_mem_head? h
  obtain ⟨i, hi⟩ := mem_leaves_leafAt hfront
  have hg := hm.vertices.2 i _ hi
  obtain ⟨j, c, hj, hl⟩ := (tree_depth s.vertices).1
  have hd := hm.shaped.depth j c hj
  have := hm.shaped.small
  unfold timeStep
  rw [hs.1 _ (by omega), Outcome.bind_ok]
  rw [hg.1, hg.2.1, max_self, if_neg (by
    have := Nat.two_pow_pos s.vertices.depth
    omega)]
  unfold dt
  push_cast
  rfl

/-- One step. -/
theorem step_ok (hs : TotalShift sh) {s : Solution} {D N : Nat} (hm : Mesh s D N) {f : Index 2 → Nat → Nat → ℝ}
    (hf : Blocks s.vertices s.conserved N N f) (fuel : Nat) :
    ∃ (s' : Solution) (q : Fin 2 → Index 2 → Nat → Nat → ℝ), nextSolution sh (fuel + 2) s = .ok s' ∧ s'.vertices = s.vertices ∧
      s'.time = s.time + dt s N ∧ s'.iteration = s.iteration + 1 ∧
      (∀ a i c, LeafAt s.vertices i c → ∃ j, j.Valid ∧ Follows True a j i ∧ ReadAt s.vertices N f j (q a i)) ∧
      Blocks s.vertices s'.conserved N N fun i x y => f i x y - courant s N i *
        ((f i x y - behind N 0 (f i) (q 0 i) x y) + (f i x y - behind N 1 (f i) (q 1 i) x y)) := by
  classical
  have hT := hm.shaped
  have hN := hT.pos
  obtain ⟨lx, qx, e1, r1, s1, h1⟩ := inflow_ok hs hm hf fuel 0
  obtain ⟨ly, qy, e2, r2, s2, h2⟩ := inflow_ok hs hm hf fuel 1
  obtain ⟨dA, e3, s3, h3⟩ := oneM_ok (F := areaFromVertices) (S := fun i B => Grid B N N fun _ _ => cellSize 1 N i ^ 2)
    hm.vertices.1 hm.vertices.2 fun i B _ h => areaFromVertices_ok hN hT.bound h
  have hpos : ∀ i : Index 2, 0 < cellSize 1 N i := fun i => by
    unfold cellSize
    positivity
  obtain ⟨P1, L, e4, e5, s5, h5⟩ := pairM_ok (F := fun p => (binaryOp (· + ·) p.1 p.2).map fun A => A.map (· * dt s N)) (S := fun i B => Grid B N N fun x y =>
      (-(cellSize 1 N i / 2 * (f i x y - behind N 0 (f i) (qx i) x y)) + -(cellSize 1 N i / 2 * (f i x y - behind N 1 (f i) (qy i) x y))) * dt s N)
    s1 s2 h1 h2 fun i B C _ hB hC => by
      obtain ⟨A, e, hA⟩ := hB.binaryOp hC (· + ·)
      exact ⟨_, by dsimp only; rw [e, Outcome.map_ok], hA.map (· * dt s N)⟩
  obtain ⟨P2, dU, e6, e7, s7, h7⟩ := pairM_ok (F := fun p => binaryOpO (fun x d => if d = 0 then .ub else .ok (x / d)) p.1 p.2) (S := fun i B => Grid B N N fun x y =>
      (-(cellSize 1 N i / 2 * (f i x y - behind N 0 (f i) (qx i) x y)) + -(cellSize 1 N i / 2 * (f i x y - behind N 1 (f i) (qy i) x y))) * dt s N / cellSize 1 N i ^ 2)
    s5 s3 h5 h3 fun i B C _ hB hC => hB.binaryOpO hC fun x _ y _ => if_neg (pow_ne_zero 2 (hpos i).ne')
  obtain ⟨P3, u, e8, e9, s9, h9⟩ := pairM_ok (F := fun p => (binaryOp (· + ·) p.1 p.2).bind evaluate) (S := fun i B => Grid B N N fun x y =>
      f i x y + (-(cellSize 1 N i / 2 * (f i x y - behind N 0 (f i) (qx i) x y)) + -(cellSize 1 N i / 2 * (f i x y - behind N 1 (f i) (qy i) x y))) * dt s N / cellSize 1 N i ^ 2)
    hf.1 s7 hf.2 h7 fun i B C _ hB hC => by
      obtain ⟨A, e, hA⟩ := hB.binaryOp hC (· + ·)
      obtain ⟨E, e', hE⟩ := hA.evaluate hN hN (hT.of_le (by omega) (by omega))
      exact ⟨E, by dsimp only; rw [e, Outcome.bind_ok, e'], hE⟩
  refine ⟨⟨s.iteration + 1, s.time + dt s N, s.vertices, u⟩, ![qx, qy], ?_, rfl, rfl, rfl, fun a => ?_, s9, fun i B hi => ?_⟩
  · unfold nextSolution
    rw [timeStep_ok hs hm, Outcome.bind_ok, e3, Outcome.bind_ok, e1, Outcome.bind_ok, e2, Outcome.bind_ok, e4, Outcome.bind_ok, e5,
      Outcome.bind_ok, e6, Outcome.bind_ok, e7, Outcome.bind_ok, e8, Outcome.bind_ok, e9, Outcome.bind_ok]
  · fin_cases a
    · exact r1
    · exact r2
  · refine (h9 i B hi).congr rfl rfl fun x _ y _ => ?_
    have := hpos i
    show _ = f i x y - courant s N i * ((f i x y - behind N 0 (f i) (qx i) x y) + (f i x y - behind N 1 (f i) (qy i) x y))
    unfold courant
    generalize f i x y - behind N 0 (f i) (qx i) x y = p
    generalize f i x y - behind N 1 (f i) (qy i) x y = r
    generalize cellSize 1 N i = h at this
    field_simp
    ring

end Verif.AmrSand
