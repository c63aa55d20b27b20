import Verif.Lemmas.BinaryUpdate

/-!
# What a step of the binary program adds up to
-/

namespace Verif.Binary

open Verif Verif.Nd Verif.Tree Iso2d Geometry TwoBody

variable {sh : Nat → Outcome Nat}

section
variable {β K : Type}

theorem cellSum_congr [AddCommMonoid K] {T : Verif.Tree.Tree 2 β} {N : Nat} {F G : Index 2 → Nat → Nat → K}
    (h : ∀ i b, LeafAt T i b → ∀ x, x < N → ∀ y, y < N → F i x y = G i x y) : cellSum T N F = cellSum T N G :=
  leafSum_congr fun i b hi => blockSum_congr (h i b hi)

theorem cellSum_add [AddCommMonoid K] (T : Verif.Tree.Tree 2 β) (N : Nat) (F G : Index 2 → Nat → Nat → K) :
    cellSum T N (fun i x y => F i x y + G i x y) = cellSum T N F + cellSum T N G := by
  unfold cellSum
  rw [← leafSum_add]
  refine leafSum_congr fun i b _ => ?_
  rw [← Finset.sum_add_distrib]
  exact Finset.sum_congr rfl fun x _ => Finset.sum_add_distrib

theorem cellSum_hom {L : Type} [AddCommMonoid K] [AddCommMonoid L] (φ : K →+ L) (T : Verif.Tree.Tree 2 β) (N : Nat) (F : Index 2 → Nat → Nat → K) :
    cellSum T N (fun i x y => φ (F i x y)) = φ (cellSum T N F) := by
  unfold cellSum
  rw [← leafSum_hom]
  refine leafSum_congr fun i b _ => ?_
  rw [map_sum]
  exact Finset.sum_congr rfl fun x _ => (map_sum φ _ _).symm

theorem cellSum_neg (T : Verif.Tree.Tree 2 β) (N : Nat) (F : Index 2 → Nat → Nat → ℝ) : cellSum T N (fun i x y => -F i x y) = -cellSum T N F :=
  cellSum_hom (negAddMonoidHom (α := ℝ)) T N F

theorem cellSum_mul (k : ℝ) (T : Verif.Tree.Tree 2 β) (N : Nat) (F : Index 2 → Nat → Nat → ℝ) :
    cellSum T N (fun i x y => k * F i x y) = k * cellSum T N F := cellSum_hom (AddMonoidHom.mulLeft k) T N F

theorem cellSum_zero {T : Verif.Tree.Tree 2 β} {N : Nat} {F : Index 2 → Nat → Nat → ℝ}
    (h : ∀ i b, LeafAt T i b → ∀ x, x < N → ∀ y, y < N → F i x y = 0) : cellSum T N F = 0 := by
  have : cellSum T N F = cellSum T N (fun i x y => (0 : ℝ) * F i x y) := cellSum_congr fun i b hi x hx y hy => by rw [h i b hi x hx y hy, mul_zero]
  rw [this, cellSum_mul, zero_mul]

theorem leafSumAt_nonneg {t u : Verif.Tree.Tree 2 β} {i : Index 2} (hu : NodeAt t i u) {F : Index 2 → β → ℝ}
    (h : ∀ j b, LeafAt t j b → 0 ≤ F j b) : 0 ≤ leafSumAt F u i := by
  induction u generalizing i with
  | leaf a => exact h i a hu
  | node c ih =>
    unfold leafSumAt
    exact Finset.sum_nonneg fun k _ => ih k (nodeAt_child hu k)

theorem cellSum_nonneg {T : Verif.Tree.Tree 2 β} {N : Nat} {F : Index 2 → Nat → Nat → ℝ}
    (h : ∀ i b, LeafAt T i b → ∀ x, x < N → ∀ y, y < N → 0 ≤ F i x y) : 0 ≤ cellSum T N F :=
  leafSumAt_nonneg (.here T) fun i b hi => Finset.sum_nonneg fun x hx => Finset.sum_nonneg fun y hy =>
    h i b hi x (Finset.mem_range.1 hx) y (Finset.mem_range.1 hy)

/-- The sum of the values in the leaves of a tree, each being a sum over the cells of the block. -/
theorem total_cells {γ : Type} [Zero γ] [Add γ] {φ : γ → ℝ} (h0 : φ 0 = 0) (hadd : ∀ x y, φ (x + y) = φ x + φ y) {T : Verif.Tree.Tree 2 β}
    {t : Verif.Tree.Tree 2 γ} (hsh : SameShape t T) {N : Nat} {F : Index 2 → Nat → Nat → ℝ}
    (h : ∀ i c, LeafAt t i c → φ c = blockSum N (F i)) : φ t.sum = cellSum T N F := by
  rw [sum_hom h0 hadd, cellSum_eq, ← leafSum_sameShape hsh]
  exact leafSum_congr h

end

theorem grid_unique {α : Type} {A : Arr 2 α} {m n : Nat} {f g : Nat → Nat → α} (hf : Grid A m n f) (hg : Grid A m n g) (x : Nat) (hx : x < m) (y : Nat)
    (hy : y < n) : f x y = g x y := Outcome.ok.inj ((hf.2.2 x hx y hy).symm.trans (hg.2.2 x hx y hy))

theorem blockSum_neg {N : Nat} (F : Nat → Nat → ℝ) : -blockSum N F = blockSum N fun x y => -F x y := by
  unfold blockSum
  simp only [Finset.sum_neg_distrib]

/-- The state after a step. `e` is the source term other than gravity, sinks and buffer. -/
structure Stepped (lin : Bool) (m : SolverData) (N : Nat) (b : State) (dt : ℝ) (f init e : Index 2 → Nat → Nat → Tri) (br : Index 2 → Nat → Nat → ℝ)
    (gx gy g : Index 2 → Nat → Nat → Tri) (t : Totals) : Prop where
  cells : ∀ i c, LeafAt m.vertices i c → ∀ x, x < N → ∀ y, y < N → g i x y = ((f i x y).sub
    ((((gx i (x + 1) y - gx i x y).add (gy i (y + 1) x - gy i y x)).mul dt).div (cellSize m.params.domainRadius N i ^ 2))).add
    ((((((gravS lin m b.body1 dt (f i x y) (cellCenter m.params.domainRadius N i x y)).add
    (gravS lin m b.body2 dt (f i x y) (cellCenter m.params.domainRadius N i x y))).add
    (sinkS m b.body1 dt (f i x y) (cellCenter m.params.domainRadius N i x y))).add
    (sinkS m b.body2 dt (f i x y) (cellCenter m.params.domainRadius N i x y))).add
    (bufS dt (init i x y) (f i x y) (br i x y))).add (e i x y))
  mass : ∀ k, (t.on k).mass = -cellSum m.vertices N fun i x y =>
    (sinkS m (body b k) dt (f i x y) (cellCenter m.params.domainRadius N i x y)).a * cellSize m.params.domainRadius N i ^ 2
  angmom : ∀ k, (t.on k).angmom = -cellSum m.vertices N fun i x y =>
    lz lin (sinkS m (body b k) dt (f i x y) (cellCenter m.params.domainRadius N i x y)) (cellCenter m.params.domainRadius N i x y) *
      cellSize m.params.domainRadius N i ^ 2
  torque : ∀ k, (t.on k).torque = -cellSum m.vertices N fun i x y =>
    lz lin (gravS lin m (body b k) dt (f i x y) (cellCenter m.params.domainRadius N i x y)) (cellCenter m.params.domainRadius N i x y) *
      cellSize m.params.domainRadius N i ^ 2
  momentumX : ∀ k, (t.on k).momentumX = -cellSum m.vertices N fun i x y =>
    (momentum lin (sinkS m (body b k) dt (f i x y) (cellCenter m.params.domainRadius N i x y)) (cellCenter m.params.domainRadius N i x y)).1 *
      cellSize m.params.domainRadius N i ^ 2
  momentumY : ∀ k, (t.on k).momentumY = -cellSum m.vertices N fun i x y =>
    (momentum lin (sinkS m (body b k) dt (f i x y) (cellCenter m.params.domainRadius N i x y)) (cellCenter m.params.domainRadius N i x y)).2 *
      cellSize m.params.domainRadius N i ^ 2
  forceX : ∀ k, (t.on k).forceX = -cellSum m.vertices N fun i x y =>
    (gravF m (body b k) (f i x y) (cellCenter m.params.domainRadius N i x y)).1 * dt * cellSize m.params.domainRadius N i ^ 2
  forceY : ∀ k, (t.on k).forceY = -cellSum m.vertices N fun i x y =>
    (gravF m (body b k) (f i x y) (cellCenter m.params.domainRadius N i x y)).2 * dt * cellSize m.params.domainRadius N i ^ 2
  massEjected : t.massEjected = -cellSum m.vertices N fun i x y =>
    (bufS dt (init i x y) (f i x y) (br i x y)).a * cellSize m.params.domainRadius N i ^ 2
  angmomEjected : t.angmomEjected = -cellSum m.vertices N fun i x y =>
    lz lin (bufS dt (init i x y) (f i x y) (br i x y)) (cellCenter m.params.domainRadius N i x y) * cellSize m.params.domainRadius N i ^ 2
  floor : lin = true → ∀ i c, LeafAt m.vertices i c → ∀ x, x < N → ∀ y, y < N → e i x y = floorCell m.params.densityFloor (f i x y)
  geometric : lin = false → ∀ i c, LeafAt m.vertices i c → ∀ x, x < N → ∀ y, y < N → (e i x y).a = 0 ∧ (e i x y).c = 0

theorem stepCore_of_fluxes (hs : TotalShift sh) {lin : Bool} {m : SolverData} {D N : Nat} (hm : MeshData lin m D N) {s : Solution}
    {f : Index 2 → Nat → Nat → Tri} {b : State} (hst : StateData lin m N s f b) {dt : ℝ} (hdt : 0 ≤ dt) (hr : 0 ≤ m.params.sinkRate)
    {br : Index 2 → Nat → Nat → ℝ} (hbr : Blocks m.vertices m.bufferRate N N br)
    {init : Index 2 → Nat → Nat → Tri} (hinit : Blocks m.vertices (if lin then m.initialU else m.initialQ) N N init)
    {fuel : Nat} {z : Fin 9 → Bool} {safe : Bool} {p0 fx fy : Quad Tri} {p gx gy : Index 2 → Nat → Nat → Tri}
    (eF : stepFluxes sh fuel z lin m s safe = .ok (p0, b, fx, fy)) (hp : Blocks m.vertices p0 N N p)
    (hx : Fluxes lin m.vertices N 0 fx gx) (hy : Fluxes lin m.vertices N 1 fy gy) :
    ∃ (u1 : Quad Tri) (t : Totals) (g e : Index 2 → Nat → Nat → Tri),
      stepCore sh fuel z lin m s dt safe = .ok (u1, t, b) ∧ Blocks m.vertices u1 N N g ∧
      Stepped lin m N b dt f init e br gx gy g t := by
  have h30 := hm.shaped.small
  obtain ⟨u, q, eu, hsh, hu⟩ := mapIndexes_choose (γ := (Nat → Nat → Tri) × (Nat → Nat → Tri)) (f := blockUpdate sh lin m s b p0 fx fy dt)
    (P := fun i B q => Updated lin m N b dt i (f i) (init i) q.2 (br i) (gx i) (gy i) q.1 B) p0 D (hm.shaped.depth.sameShape hp.1) (by omega) (fun i a hi => by
      obtain ⟨c0, hc⟩ := (hp.1 i).1 ⟨a, hi⟩
      obtain ⟨B, g, e, h1, h2⟩ := blockUpdate_ok hs hm hst hp hbr hinit hdt hr hx hy hc
      exact ⟨B, (g, e), h1, h2⟩)
  have hT := hsh.trans hp.1
  have hsnd : SameShape (u.map Prod.snd) m.vertices := (sameShape_map u Prod.snd).trans hT
  have hrec : ∀ i t, LeafAt (u.map Prod.snd) i t → ∃ S, Sources lin m N b dt i (f i) (init i) (q i).2 (br i) S t := by
    intro i t ht
    obtain ⟨B, hB, rfl⟩ := leafAt_map.1 ht
    obtain ⟨S, σ, hS, _⟩ := (hu i B hB).2.sources
    exact ⟨S, hS⟩
  have hleaf : ∀ i c, LeafAt m.vertices i c → ∃ B, LeafAt u i B := fun i c hc => (hT i).2 ⟨c, hc⟩
  refine ⟨u.map Prod.fst, (u.map Prod.snd).sum, fun i => (q i).1, fun i => (q i).2, ?_, ⟨?_, ?_⟩, ⟨?_, ?_, ?_, ?_, ?_, ?_, ?_, ?_, ?_, ?_, ?_, ?_⟩⟩
  · unfold stepCore
    rw [eF, Outcome.bind_ok]
    dsimp only
    rw [eu, Outcome.bind_ok]
  · exact (sameShape_map u Prod.fst).trans hT
  · intro i B hB
    obtain ⟨B', hB', rfl⟩ := leafAt_map.1 hB
    exact (hu i B' hB').2.grid
  · intro i c hc x hx y hy
    obtain ⟨B, hB⟩ := hleaf i c hc
    obtain ⟨S, σ, hS, hσ, hg⟩ := (hu i B hB).2.sources
    rw [hg x hx y hy, grid_unique hσ hS.grid x hx y hy]
  · intro k
    rw [← cellSum_neg]
    refine total_cells (φ := fun t : Totals => (t.on k).mass) rfl (fun _ _ => rfl) hsnd fun i t ht => ?_
    obtain ⟨S, hS⟩ := hrec i t ht
    rw [(hS.on k).mass, blockSum_neg]
  · intro k
    rw [← cellSum_neg]
    refine total_cells (φ := fun t : Totals => (t.on k).angmom) rfl (fun _ _ => rfl) hsnd fun i t ht => ?_
    obtain ⟨S, hS⟩ := hrec i t ht
    rw [(hS.on k).angmom, blockSum_neg]
  · intro k
    rw [← cellSum_neg]
    refine total_cells (φ := fun t : Totals => (t.on k).torque) rfl (fun _ _ => rfl) hsnd fun i t ht => ?_
    obtain ⟨S, hS⟩ := hrec i t ht
    rw [(hS.on k).torque, blockSum_neg]
  · intro k
    rw [← cellSum_neg]
    refine total_cells (φ := fun t : Totals => (t.on k).momentumX) rfl (fun _ _ => rfl) hsnd fun i t ht => ?_
    obtain ⟨S, hS⟩ := hrec i t ht
    rw [(hS.on k).momentumX, blockSum_neg]
  · intro k
    rw [← cellSum_neg]
    refine total_cells (φ := fun t : Totals => (t.on k).momentumY) rfl (fun _ _ => rfl) hsnd fun i t ht => ?_
    obtain ⟨S, hS⟩ := hrec i t ht
    rw [(hS.on k).momentumY, blockSum_neg]
  · intro k
    rw [← cellSum_neg]
    refine total_cells (φ := fun t : Totals => (t.on k).forceX) rfl (fun _ _ => rfl) hsnd fun i t ht => ?_
    obtain ⟨S, hS⟩ := hrec i t ht
    rw [(hS.on k).forceX, blockSum_neg]
  · intro k
    rw [← cellSum_neg]
    refine total_cells (φ := fun t : Totals => (t.on k).forceY) rfl (fun _ _ => rfl) hsnd fun i t ht => ?_
    obtain ⟨S, hS⟩ := hrec i t ht
    rw [(hS.on k).forceY, blockSum_neg]
  · rw [← cellSum_neg]
    refine total_cells (φ := fun t : Totals => t.massEjected) rfl (fun _ _ => rfl) hsnd fun i t ht => ?_
    obtain ⟨S, hS⟩ := hrec i t ht
    rw [hS.massEjected, blockSum_neg]
  · rw [← cellSum_neg]
    refine total_cells (φ := fun t : Totals => t.angmomEjected) rfl (fun _ _ => rfl) hsnd fun i t ht => ?_
    obtain ⟨S, hS⟩ := hrec i t ht
    rw [hS.angmomEjected, blockSum_neg]
  · intro hl i c hc
    obtain ⟨B, hB⟩ := hleaf i c hc
    obtain ⟨S, σ, hS, _⟩ := (hu i B hB).2.sources
    exact hS.floor hl
  · intro hl i c hc
    obtain ⟨B, hB⟩ := hleaf i c hc
    obtain ⟨S, σ, hS, _⟩ := (hu i B hB).2.sources
    exact hS.geometric hl

theorem stepCore_ok (hs : TotalShift sh) {lin : Bool} {m : SolverData} {D N : Nat} (hm : MeshData lin m D N) {s : Solution}
    {f : Index 2 → Nat → Nat → Tri} {b : State} (hst : StateData lin m N s f b) {dt : ℝ} (hdt : 0 ≤ dt) (hr : 0 ≤ m.params.sinkRate)
    {br : Index 2 → Nat → Nat → ℝ} (hbr : Blocks m.vertices m.bufferRate N N br)
    {init : Index 2 → Nat → Nat → Tri} (hinit : Blocks m.vertices (if lin then m.initialU else m.initialQ) N N init)
    (fuel : Nat) (z : Fin 9 → Bool) (safe : Bool) :
    ∃ (p0 fx fy : Quad Tri) (gx gy : Index 2 → Nat → Nat → Tri) (u1 : Quad Tri) (t : Totals) (g e : Index 2 → Nat → Nat → Tri),
      stepFluxes sh (fuel + 1) z lin m s safe = .ok (p0, b, fx, fy) ∧ Fluxes lin m.vertices N 0 fx gx ∧ Fluxes lin m.vertices N 1 fy gy ∧
      stepCore sh (fuel + 1) z lin m s dt safe = .ok (u1, t, b) ∧ Blocks m.vertices u1 N N g ∧
      Stepped lin m N b dt f init e br gx gy g t := by
  obtain ⟨p0, fx, fy, p, gx, gy, eF, hp, hx, hy⟩ := stepFluxes_ok hs hm hst fuel z safe
  obtain ⟨u1, t, g, e, h⟩ := stepCore_of_fluxes hs hm hst hdt hr hbr hinit eF hp hx hy
  exact ⟨p0, fx, fy, gx, gy, u1, t, g, e, eF, hx, hy, h⟩

/-- A linear function of the conserved quantities in each cell, summed over the disk before and after a step. -/
theorem Stepped.budget {lin : Bool} {m : SolverData} {D N : Nat} (hm : MeshData lin m D N) {b : State} {dt : ℝ}
    {f init e : Index 2 → Nat → Nat → Tri} {br : Index 2 → Nat → Nat → ℝ} {gx gy g : Index 2 → Nat → Nat → Tri} {t : Totals}
    (h : Stepped lin m N b dt f init e br gx gy g t) (ℓ : Index 2 → Nat → Nat → Tri →ₗ[ℝ] ℝ) :
    cellSum m.vertices N (fun i x y => ℓ i x y (g i x y) * cellSize m.params.domainRadius N i ^ 2) =
      cellSum m.vertices N (fun i x y => ℓ i x y (f i x y) * cellSize m.params.domainRadius N i ^ 2) -
      dt * cellSum m.vertices N (fun i x y => ℓ i x y ((gx i (x + 1) y - gx i x y) + (gy i (y + 1) x - gy i y x))) +
      cellSum m.vertices N (fun i x y => ℓ i x y (gravS lin m b.body1 dt (f i x y) (cellCenter m.params.domainRadius N i x y)) *
        cellSize m.params.domainRadius N i ^ 2) +
      cellSum m.vertices N (fun i x y => ℓ i x y (gravS lin m b.body2 dt (f i x y) (cellCenter m.params.domainRadius N i x y)) *
        cellSize m.params.domainRadius N i ^ 2) +
      cellSum m.vertices N (fun i x y => ℓ i x y (sinkS m b.body1 dt (f i x y) (cellCenter m.params.domainRadius N i x y)) *
        cellSize m.params.domainRadius N i ^ 2) +
      cellSum m.vertices N (fun i x y => ℓ i x y (sinkS m b.body2 dt (f i x y) (cellCenter m.params.domainRadius N i x y)) *
        cellSize m.params.domainRadius N i ^ 2) +
      cellSum m.vertices N (fun i x y => ℓ i x y (bufS dt (init i x y) (f i x y) (br i x y)) * cellSize m.params.domainRadius N i ^ 2) +
      cellSum m.vertices N (fun i x y => ℓ i x y (e i x y) * cellSize m.params.domainRadius N i ^ 2) := by
  rw [sub_eq_add_neg, ← cellSum_mul, ← cellSum_neg, ← cellSum_add, ← cellSum_add, ← cellSum_add, ← cellSum_add, ← cellSum_add, ← cellSum_add,
    ← cellSum_add]
  refine cellSum_congr fun i c hi x hx y hy => ?_
  rw [h.cells i c hi x hx y hy]
  have hA := cellSize_pos hm.radius hm.shaped.pos i
  set A := cellSize m.params.domainRadius N i ^ 2 with hAdef
  have hA0 : A ≠ 0 := by positivity
  have e1 : ∀ u v : Tri, u.add v = u + v := fun _ _ => rfl
  have e2 : ∀ u v : Tri, u.sub v = u - v := fun _ _ => rfl
  have e3 : ∀ (u : Tri) k, u.mul k = k • u := fun _ _ => rfl
  have e4 : ∀ (u : Tri) k, u.div k = k⁻¹ • u := fun u k => Tri.ext (div_eq_mul_inv _ _) (div_eq_mul_inv _ _) (div_eq_mul_inv _ _)
  rw [e1, e1, e1, e1, e1, e1, e1, e2, e3, e4]
  simp only [map_add, map_sub, map_smul, smul_eq_mul]
  field_simp
  ring

end Verif.Binary
