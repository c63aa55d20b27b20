import Verif.Lemmas.BinaryBudget

/-!
# Mass and angular momentum of the disk
-/

namespace Verif.Binary

open Verif Verif.Nd Verif.Tree Iso2d Geometry TwoBody

variable {sh : Nat → Outcome Nat}

theorem mapM_total {α β : Type} {f : α → Outcome ℝ} {T : Verif.Tree.Tree 2 β} {t : Verif.Tree.Tree 2 α} (hsh : SameShape t T) {N : Nat}
    {F : Index 2 → Nat → Nat → ℝ} (h : ∀ i a, LeafAt t i a → f a = .ok (blockSum N (F i))) :
    (Tree.mapM f t).map Tree.sum = .ok (cellSum T N F) := by
  obtain ⟨u, _, eu, hu, hl⟩ := mapM_choose (γ := Unit) (P := fun i v _ => v = blockSum N (F i)) t fun i a hi => ⟨_, (), h i a hi, rfl⟩
  rw [eu, Outcome.map_ok]
  exact congrArg Outcome.ok (total_cells (φ := id) rfl (fun _ _ => rfl) (hu.trans hsh) hl)

theorem Blocks.pair {β γ δ : Type} {T : Verif.Tree.Tree 2 β} {t : Quad γ} {u : Quad δ} {m n k l : Nat} {f : Index 2 → Nat → Nat → γ}
    {g : Index 2 → Nat → Nat → δ} (ht : Blocks T t m n f) (hu : Blocks T u k l g) :
    ∃ r, t.pair u = .ok r ∧ SameShape r T ∧ ∀ i p, LeafAt r i p → Grid p.1 m n (f i) ∧ Grid p.2 k l (g i) := by
  obtain ⟨r, er, hr, hl⟩ := pair_ok (ht.1.trans hu.1.symm)
  exact ⟨r, er, hr.trans ht.1, fun i p hp => ⟨ht.2 i _ (hl i p hp).1, hu.2 i _ (hl i p hp).2⟩⟩

theorem diskMass_ok {m : SolverData} {D N : Nat} (hm : MeshData m.conserveLinear m D N) {s : Solution} {f : Index 2 → Nat → Nat → Tri}
    (hf : Blocks m.vertices (cons m.conserveLinear s) N N f) :
    diskMass m s = .ok (cellSum m.vertices N fun i x y => (f i x y).a * cellSize m.params.domainRadius N i ^ 2) := by
  have hN := hm.shaped.pos
  have hlt := hm.shaped.lt
  obtain ⟨r, er, hr, hl⟩ := hf.pair hm.areas
  unfold diskMass
  rw [er, Outcome.bind_ok]
  exact mapM_total hr fun i p hp => integral_ok hN hlt ((hl i p hp).1.map Tri.a) (hl i p hp).2

theorem diskAngmom_ok {m : SolverData} {D N : Nat} (hm : MeshData m.conserveLinear m D N) {s : Solution} {f : Index 2 → Nat → Nat → Tri}
    (hf : Blocks m.vertices (cons m.conserveLinear s) N N f) :
    diskAngmom m s = .ok (cellSum m.vertices N fun i x y =>
      lz m.conserveLinear (f i x y) (cellCenter m.params.domainRadius N i x y) * cellSize m.params.domainRadius N i ^ 2) := by
  have hN := hm.shaped.pos
  have hlt := hm.shaped.lt
  unfold diskAngmom
  cases hl : m.conserveLinear with
  | true =>
    rw [hl] at hf
    have hf : Blocks m.vertices s.u N N f := hf
    obtain ⟨r, er, hr, hg⟩ := hf.pair hm.centers
    obtain ⟨L, g, eL, hL, hLg⟩ := mapM_choose (f := fun q : Arr 2 Tri × Arr 2 (ℝ × ℝ) => binaryOp (fun u x => angularMomentum u x.1 x.2) q.1 q.2)
      (P := fun i B (q : Unit) => Grid B N N fun x y => lz true (f i x y) (cellCenter m.params.domainRadius N i x y)) r (fun i p hp => by
        obtain ⟨C, e, h⟩ := (hg i p hp).1.binaryOp (hg i p hp).2 fun u x => angularMomentum u x.1 x.2
        exact ⟨C, (), e, h⟩)
    have hLB : Blocks m.vertices L N N fun i x y => lz true (f i x y) (cellCenter m.params.domainRadius N i x y) := ⟨hL.trans hr, hLg⟩
    obtain ⟨r', er', hr', hg'⟩ := hLB.pair hm.areas
    rw [if_pos rfl, er, Outcome.bind_ok, eL, Outcome.bind_ok, er', Outcome.bind_ok]
    exact mapM_total hr' fun i p hp => integral_ok hN hlt (hg' i p hp).1 (hg' i p hp).2
  | false =>
    rw [hl] at hf
    have hf : Blocks m.vertices s.q N N f := hf
    obtain ⟨r, er, hr, hg⟩ := hf.pair hm.areas
    rw [if_neg (by decide), er, Outcome.bind_ok]
    refine mapM_total hr fun i p hp => ?_
    obtain ⟨C, e, h⟩ := (hg i p hp).1.binaryOp (hg i p hp).2 Tri.mul
    rw [e, Outcome.bind_ok, (h.map Tri.c).sum hN hN (by omega) (by omega)]
    rfl

end Verif.Binary
