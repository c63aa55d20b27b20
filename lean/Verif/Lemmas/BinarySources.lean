import Verif.Lemmas.BinaryFluxes

/-!
# The source terms of the binary program
-/

namespace Verif.Tree

open Verif

variable {R : Nat} {α K : Type}

theorem seq_sum_hom [Zero α] [Add α] [AddCommMonoid K] {φ : α → K} (h0 : φ 0 = 0) (hadd : ∀ x y, φ (x + y) = φ x + φ y) {n : Nat} (x : Fin n → α) :
    φ (Seq.sum x) = ∑ k, φ (x k) := by
  unfold Seq.sum
  induction n with
  | zero => simpa using h0
  | succ n ih =>
    rw [Fin.foldl_succ_last, hadd, Fin.sum_univ_castSucc]
    congr 1
    exact ih fun k => x k.castSucc

/-- The sum of a tree, seen through an additive function. -/
theorem sum_hom [Zero α] [Add α] [AddCommMonoid K] {φ : α → K} (h0 : φ 0 = 0) (hadd : ∀ x y, φ (x + y) = φ x + φ y) (t : Tree R α) :
    φ t.sum = leafSum t fun _ a => φ a := by
  unfold leafSum
  generalize (Index.root : Index R) = i
  induction t generalizing i with
  | leaf a => rfl
  | node c ih =>
    unfold Tree.sum leafSumAt
    rw [seq_sum_hom h0 hadd]
    exact Finset.sum_congr rfl fun k _ => ih k _

end Verif.Tree

namespace Verif.Binary

open Verif Verif.Nd Verif.Tree Iso2d Geometry TwoBody

variable {sh : Nat → Outcome Nat}

theorem gravVdot_pull {s : Params} (hs : s.softening ≠ 0) (B : PointMass) (p : ℝ × ℝ) :
    gravVdot s (position B) B.mass p = .ok (pull s.softening B p) := by
  have hpos : 0 < (p.1 - B.x) * (p.1 - B.x) + (p.2 - B.y) * (p.2 - B.y) + s.softening * s.softening := by
    have := mul_self_pos.2 hs
    have h1 := mul_self_nonneg (p.1 - B.x)
    have h2 := mul_self_nonneg (p.2 - B.y)
    linarith
  unfold gravVdot pull position
  dsimp only
  rw [if_neg hpos.ne', pow_two, pow_two, pow_two]
  refine congrArg Outcome.ok (Prod.ext ?_ ?_) <;> dsimp only <;> ring

theorem sinkRate_drain {s : Params} (hs : s.sinkRadius ≠ 0) (B : PointMass) (p : ℝ × ℝ) :
    sinkRate s (position B) p = .ok (drain s.sinkRate s.sinkRadius B p) := by
  unfold sinkRate drain position
  dsimp only
  rw [if_neg (mul_self_pos.2 hs).ne']
  refine congrArg Outcome.ok (congrArg (fun v => s.sinkRate * Real.exp (-v)) ?_)
  field_simp

/-- The sum over the cells of a block. -/
noncomputable def blockSum {K : Type} [AddCommMonoid K] (N : Nat) (F : Nat → Nat → K) : K :=
  ∑ x ∈ Finset.range N, ∑ y ∈ Finset.range N, F x y

theorem blockSum_congr {K : Type} [AddCommMonoid K] {N : Nat} {F G : Nat → Nat → K} (h : ∀ x, x < N → ∀ y, y < N → F x y = G x y) :
    blockSum N F = blockSum N G :=
  Finset.sum_congr rfl fun x hx => Finset.sum_congr rfl fun y hy => h x (Finset.mem_range.1 hx) y (Finset.mem_range.1 hy)

theorem cellSum_eq {β K : Type} [AddCommMonoid K] (T : Verif.Tree.Tree 2 β) (N : Nat) (F : Index 2 → Nat → Nat → K) :
    cellSum T N F = leafSum T fun i _ => blockSum N (F i) := rfl

section
variable {N : Nat} (hN : 1 ≤ N) (hlt : N + 2 < 2 ^ 31) (hNN : N * N < 2 ^ 31)
include hN hlt

theorem integral_ok {f dA : Arr 2 ℝ} {g A : Nat → Nat → ℝ} (hf : Grid f N N g) (hA : Grid dA N N A) :
    integral f dA = .ok (blockSum N fun x y => g x y * A x y) := by
  obtain ⟨C, e, h⟩ := hf.binaryOp hA (· * ·)
  unfold integral
  rw [e, Outcome.bind_ok, h.sum hN hN (by omega) (by omega)]
  rfl

theorem angmomDensity_ok (lin : Bool) {s : Arr 2 Tri} {xc : Arr 2 (ℝ × ℝ)} {g : Nat → Nat → Tri} {c : Nat → Nat → ℝ × ℝ}
    (hs : Grid s N N g) (hx : Grid xc N N c) :
    ∃ l, angmomDensity lin s xc = .ok l ∧ Grid l N N fun x y => lz lin (g x y) (c x y) := by
  unfold angmomDensity
  cases lin with
  | true =>
    obtain ⟨C, e, h⟩ := hs.binaryOp hx fun u x => angularMomentum u x.1 x.2
    exact ⟨C, by rw [if_pos rfl, e], h⟩
  | false => exact ⟨_, if_neg (by decide), hs.map Tri.c⟩

theorem momentumDensity_ok (hNN : N * N < 2 ^ 31) (lin : Bool) {s : Arr 2 Tri} {xc : Arr 2 (ℝ × ℝ)} {g : Nat → Nat → Tri} {c : Nat → Nat → ℝ × ℝ}
    (hs : Grid s N N g) (hx : Grid xc N N c) (hc : lin = false → ∀ x, x < N → ∀ y, y < N → (c x y).1 * (c x y).1 + (c x y).2 * (c x y).2 ≠ 0) :
    ∃ l, momentumDensity lin s xc = .ok l ∧ Grid l N N fun x y => momentum lin (g x y) (c x y) := by
  classical
  unfold momentumDensity
  cases lin with
  | true => exact ⟨_, if_pos rfl, hs.map _⟩
  | false =>
    obtain ⟨C, e, h⟩ := hs.binaryOpO (x := fun x y => momentum false (g x y) (c x y)) hx (u := fun q x => if x.1 * x.1 + x.2 * x.2 = 0 then .ub
      else .ok ((angmomToConserved q x.1 x.2).b, (angmomToConserved q x.1 x.2).c)) (fun x hx y hy => by
        rw [if_neg (hc rfl x hx y hy)]
        unfold momentum angmomToConserved
        rw [if_neg (by decide), pow_two, pow_two])
    obtain ⟨E, eE, hE⟩ := h.evaluate hN hN hNN
    exact ⟨E, by rw [if_neg (by decide), e, Outcome.bind_ok, eE], hE⟩

theorem workOn_ok (lin : Bool) (b : PointMass) (du : Tri) (h : lin = true → b.mass ≠ 0 ∧ b.mass + du.a ≠ 0) : ∃ w, workOn lin b du = .ok w := by
  unfold workOn
  cases lin with
  | true =>
    obtain ⟨h1, h2⟩ := h rfl
    rw [if_pos rfl]
    dsimp only
    rw [if_neg (by rintro (h | h); exacts [h2 h, h1 h])]
    exact ⟨_, rfl⟩
  | false => exact ⟨_, if_neg (by decide)⟩

/-- What is recorded for a body in a block: `A` are the areas, `c` the positions of the cells, `f` the force per area, `g` and `k` the source
terms by gravity and by the sink. -/
structure Recorded (lin : Bool) (N : Nat) (A : Nat → Nat → ℝ) (c : Nat → Nat → ℝ × ℝ) (dt : ℝ) (f : Nat → Nat → ℝ × ℝ) (g k : Nat → Nat → Tri)
    (t : BodyTotals) : Prop where
  mass : t.mass = -blockSum N fun x y => (k x y).a * A x y
  angmom : t.angmom = -blockSum N fun x y => lz lin (k x y) (c x y) * A x y
  torque : t.torque = -blockSum N fun x y => lz lin (g x y) (c x y) * A x y
  momentumX : t.momentumX = -blockSum N fun x y => (momentum lin (k x y) (c x y)).1 * A x y
  momentumY : t.momentumY = -blockSum N fun x y => (momentum lin (k x y) (c x y)).2 * A x y
  forceX : t.forceX = -blockSum N fun x y => (f x y).1 * dt * A x y
  forceY : t.forceY = -blockSum N fun x y => (f x y).2 * dt * A x y

theorem bodyTotals_ok (hNN : N * N < 2 ^ 31) (lin : Bool) (b : PointMass) {xc fg : Arr 2 (ℝ × ℝ)} {dA : Arr 2 ℝ} {grav sink : Arr 2 Tri}
    {c f : Nat → Nat → ℝ × ℝ} {A : Nat → Nat → ℝ} {g k : Nat → Nat → Tri} (hx : Grid xc N N c) (hA : Grid dA N N A) (hf : Grid fg N N f)
    (hg : Grid grav N N g) (hk : Grid sink N N k) (dt : ℝ)
    (hc : lin = false → ∀ x, x < N → ∀ y, y < N → (c x y).1 * (c x y).1 + (c x y).2 * (c x y).2 ≠ 0)
    (hb : lin = true → b.mass ≠ 0 ∧ b.mass - blockSum N (fun x y => (k x y).a * A x y) ≠ 0) :
    ∃ t, bodyTotals lin b xc dA fg grav sink dt = .ok t ∧ Recorded lin N A c dt f g k t := by
  obtain ⟨l1, el1, hl1⟩ := angmomDensity_ok hN hlt lin hk hx
  obtain ⟨l2, el2, hl2⟩ := angmomDensity_ok hN hlt lin hg hx
  obtain ⟨p, ep, hp⟩ := momentumDensity_ok hN hlt hNN lin hk hx hc
  obtain ⟨S, eS, hS⟩ := hk.binaryOp hA Tri.mul
  have hdu := hS.sum hN hN (by omega) (by omega)
  obtain ⟨w, ew⟩ := workOn_ok hN hlt lin b (Tri.neg (blockSum N fun x y => (k x y).mul (A x y))) (fun hl => by
    obtain ⟨h1, h2⟩ := hb hl
    refine ⟨h1, ?_⟩
    have : (blockSum N fun x y => (k x y).mul (A x y)).a = blockSum N fun x y => (k x y).a * A x y := by
      refine (map_sum homA _ _).trans (Finset.sum_congr rfl fun x _ => (map_sum homA _ _))
    show b.mass + -(blockSum N fun x y => (k x y).mul (A x y)).a ≠ 0
    rw [this, ← sub_eq_add_neg]
    exact h2)
  refine ⟨⟨_, _, _, _, _, _, _, w⟩, ?_, ⟨rfl, rfl, rfl, rfl, rfl, rfl, rfl⟩⟩
  · unfold bodyTotals
    rw [integral_ok hN hlt (hk.map Tri.a) hA, Outcome.bind_ok, el1, Outcome.bind_ok, integral_ok hN hlt hl1 hA, Outcome.bind_ok, el2,
      Outcome.bind_ok, integral_ok hN hlt hl2 hA, Outcome.bind_ok, integral_ok hN hlt (hf.map _) hA, Outcome.bind_ok,
      integral_ok hN hlt (hf.map _) hA, Outcome.bind_ok, ep, Outcome.bind_ok, integral_ok hN hlt (hp.map _) hA, Outcome.bind_ok,
      integral_ok hN hlt (hp.map _) hA, Outcome.bind_ok, eS, Outcome.bind_ok, hdu, Outcome.bind_ok]
    have e : (∑ x ∈ Finset.range N, ∑ y ∈ Finset.range N, (k x y).mul (A x y)) = blockSum N fun x y => (k x y).mul (A x y) := rfl
    rw [e, ew, Outcome.bind_ok]

end

end Verif.Binary
