import Verif.Model.BinaryDiagnostics
import Verif.Lemmas.BinaryDisk
import Verif.Props.BinarySetup

/-!
# C108: the diagnostic fields of the binary program
-/

namespace Verif.Binary

open Verif Verif.Nd Verif.Tree Iso2d Geometry TwoBody

/-- The distance of a point from the origin. -/
noncomputable def distance (p : ℝ × ℝ) : ℝ := Real.sqrt (p.1 ^ 2 + p.2 ^ 2)

/-- What is recovered is the velocity of the gas. -/
theorem recovered_momentum {lin : Bool} {u p : Tri} {x x' : ℝ × ℝ} (hx : lin = false → x' = x) (h : recoverCell lin u x' = .ok p) (hu : u.a ≠ 0) :
    p.a = u.a ∧ momentum lin u x = (p.a * p.b, p.a * p.c) := by
  unfold recoverCell at h
  rw [if_neg hu] at h
  cases lin with
  | true =>
    rw [if_pos rfl] at h
    unfold recover at h
    by_cases h0 : u.a < 0
    · rw [if_pos h0] at h
      cases h
    · rw [if_neg h0] at h
      obtain rfl := Outcome.ok.inj h
      refine ⟨rfl, Prod.ext ?_ ?_⟩
      · show u.b = u.a * (u.b / u.a)
        field_simp
      · show u.c = u.a * (u.c / u.a)
        field_simp
  | false =>
    rw [if_neg (by decide), hx rfl] at h
    by_cases hr : x.1 * x.1 + x.2 * x.2 = 0
    · rw [if_pos hr] at h
      cases h
    · rw [if_neg hr] at h
      unfold recoverAngmom at h
      by_cases h0 : u.a < 0
      · rw [if_pos h0] at h
        cases h
      · rw [if_neg h0] at h
        obtain rfl := Outcome.ok.inj h
        have hr' : x.1 ^ 2 + x.2 ^ 2 ≠ 0 := by rwa [sq, sq]
        refine ⟨rfl, Prod.ext ?_ ?_⟩
        · show (u.b * x.1 - u.c * x.2) / (x.1 ^ 2 + x.2 ^ 2) = u.a * ((u.b / u.a * x.1 - u.c / u.a * x.2) / (x.1 * x.1 + x.2 * x.2))
          field_simp
        · show (u.b * x.2 + u.c * x.1) / (x.1 ^ 2 + x.2 ^ 2) = u.a * ((u.b / u.a * x.2 + u.c / u.a * x.1) / (x.1 * x.1 + x.2 * x.2))
          field_simp

/-- The angular momentum is that of the momentum. -/
theorem lz_eq (lin : Bool) (u : Tri) {x : ℝ × ℝ} (hx : lin = false → x.1 ^ 2 + x.2 ^ 2 ≠ 0) :
    lz lin u x = x.1 * (momentum lin u x).2 - x.2 * (momentum lin u x).1 := by
  cases lin with
  | true => rfl
  | false =>
    have := hx rfl
    show u.c = x.1 * ((u.b * x.2 + u.c * x.1) / (x.1 ^ 2 + x.2 ^ 2)) - x.2 * ((u.b * x.1 - u.c * x.2) / (x.1 ^ 2 + x.2 ^ 2))
    field_simp
    ring

/-- **C108**: the fields in the diagnostics files are the surface density and the radial and azimuthal components of the velocity of the gas, and their sums
over the cells are the mass and the angular momentum in the time series. -/
theorem diagnostic_fields {m : SolverData} {D N : Nat} {s : Solution} {f : Index 2 → Nat → Nat → Tri} {b : State}
    (hm : MeshData m.conserveLinear m D N) (hst : StateData m.conserveLinear m N s f b)
    (hoff : ∀ i c, LeafAt m.vertices i c → i.level ≠ 0 ∨ N % 2 = 0) :
    ∃ d sigma vr vp, diagnosticFields m s = .ok d ∧ d.time = s.time ∧ d.vertices = m.vertices ∧
      d.position1 = (b.body1.x, b.body1.y) ∧ d.position2 = (b.body2.x, b.body2.y) ∧
      Blocks m.vertices d.sigma N N sigma ∧ Blocks m.vertices d.radialVelocity N N vr ∧ Blocks m.vertices d.phiVelocity N N vp ∧
      (∀ i c, LeafAt m.vertices i c → ∀ x, x < N → ∀ y, y < N → ∃ p r, p = cellCenter m.params.domainRadius N i x y ∧ r = distance p ∧ 0 < r ∧
        sigma i x y = (f i x y).a ∧ (momentum m.conserveLinear (f i x y) p).1 = sigma i x y * (vr i x y * (p.1 / r) - vp i x y * (p.2 / r)) ∧
        (momentum m.conserveLinear (f i x y) p).2 = sigma i x y * (vr i x y * (p.2 / r) + vp i x y * (p.1 / r))) ∧
      diskMass m s = .ok (cellSum m.vertices N fun i x y => sigma i x y * cellSize m.params.domainRadius N i ^ 2) ∧
      diskAngmom m s = .ok (cellSum m.vertices N fun i x y =>
        sigma i x y * vp i x y * distance (cellCenter m.params.domainRadius N i x y) * cellSize m.params.domainRadius N i ^ 2) := by
  have hN := hm.shaped.pos
  have hNN : N * N < 2 ^ 31 := hm.shaped.of_le (by omega) (by omega)
  obtain ⟨p0, p, ep, hp, hc⟩ := recoverPrimitive_cells hm hst
  obtain ⟨pc, epc, hpc, hl⟩ := hp.pair hm.centers
  let X := cellCenter m.params.domainRadius N
  let vr : Index 2 → Nat → Nat → ℝ := fun i x y => (p i x y).b * ((X i x y).1 / Real.sqrt ((X i x y).1 * (X i x y).1 + (X i x y).2 * (X i x y).2))
    + (p i x y).c * ((X i x y).2 / Real.sqrt ((X i x y).1 * (X i x y).1 + (X i x y).2 * (X i x y).2))
  let vp : Index 2 → Nat → Nat → ℝ := fun i x y => (p i x y).b * (-(X i x y).2 / Real.sqrt ((X i x y).1 * (X i x y).1 + (X i x y).2 * (X i x y).2))
    + (p i x y).c * ((X i x y).1 / Real.sqrt ((X i x y).1 * (X i x y).1 + (X i x y).2 * (X i x y).2))
  have hr0 : ∀ i c, LeafAt m.vertices i c → ∀ x y, 0 < Real.sqrt ((X i x y).1 * (X i x y).1 + (X i x y).2 * (X i x y).2) := by
    intro i c hi x y
    have h1 := center_ne hm.radius hN (hoff i c hi) x y
    exact Real.sqrt_pos.2 (lt_of_le_of_ne (add_nonneg (mul_self_nonneg _) (mul_self_nonneg _)) h1.symm)
  have hpol : ∀ i c, LeafAt m.vertices i c → ∀ x, x < N → ∀ y, y < N → polarVelocity (p i x y) (X i x y) = .ok (vr i x y, vp i x y) := by
    intro i c hi x _ y _
    unfold polarVelocity
    dsimp only
    rw [if_neg (hr0 i c hi x y).ne']
  obtain ⟨S, _, eS, hS, hSg⟩ := mapM_choose (f := fun P : Arr 2 Tri => evaluate (P.map Tri.a))
    (P := fun i B (_ : Unit) => Grid B N N fun x y => (p i x y).a) p0 (fun i c hi => by
      obtain ⟨E, eE, hE⟩ := ((hp.2 i c hi).map Tri.a).evaluate hN hN hNN
      exact ⟨E, (), eE, hE⟩)
  obtain ⟨R, _, eR, hR, hRg⟩ := mapM_choose
    (f := fun q : Arr 2 Tri × Arr 2 (ℝ × ℝ) => (binaryOpO polarVelocity q.1 q.2).bind fun V => evaluate (V.map Prod.fst))
    (P := fun i B (_ : Unit) => Grid B N N (vr i)) pc (fun i c hi => by
      obtain ⟨c', hc'⟩ := (hpc i).1 ⟨c, hi⟩
      obtain ⟨V, eV, hV⟩ := (hl i c hi).1.binaryOpO (hl i c hi).2 (hpol i c' hc')
      obtain ⟨E, eE, hE⟩ := (hV.map Prod.fst).evaluate hN hN hNN
      exact ⟨E, (), by rw [eV, Outcome.bind_ok, eE], hE⟩)
  obtain ⟨Q, _, eQ, hQ, hQg⟩ := mapM_choose
    (f := fun q : Arr 2 Tri × Arr 2 (ℝ × ℝ) => (binaryOpO polarVelocity q.1 q.2).bind fun V => evaluate (V.map Prod.snd))
    (P := fun i B (_ : Unit) => Grid B N N (vp i)) pc (fun i c hi => by
      obtain ⟨c', hc'⟩ := (hpc i).1 ⟨c, hi⟩
      obtain ⟨V, eV, hV⟩ := (hl i c hi).1.binaryOpO (hl i c hi).2 (hpol i c' hc')
      obtain ⟨E, eE, hE⟩ := (hV.map Prod.snd).evaluate hN hN hNN
      exact ⟨E, (), by rw [eV, Outcome.bind_ok, eE], hE⟩)
  have cell : ∀ i c, LeafAt m.vertices i c → ∀ x, x < N → ∀ y, y < N → ∃ p' r, p' = X i x y ∧ r = distance p' ∧ 0 < r ∧
      (p i x y).a = (f i x y).a ∧ (momentum m.conserveLinear (f i x y) p').1 = (p i x y).a * (vr i x y * (p'.1 / r) - vp i x y * (p'.2 / r)) ∧
      (momentum m.conserveLinear (f i x y) p').2 = (p i x y).a * (vr i x y * (p'.2 / r) + vp i x y * (p'.1 / r)) := by
    intro i c hi x hx y hy
    have hr := hr0 i c hi x y
    have hd : Real.sqrt ((X i x y).1 * (X i x y).1 + (X i x y).2 * (X i x y).2) = distance (X i x y) := by
      unfold distance
      rw [sq, sq]
    obtain ⟨h1, h2⟩ := recovered_momentum (x := X i x y) (fun hf => by rw [hf]; rfl) (hc i c hi x hx y hy) (hst.density i c hi x hx y hy).ne'
    refine ⟨X i x y, _, rfl, rfl, hd ▸ hr, h1, ?_, ?_⟩
    all_goals
      rw [h2]
      dsimp only [vr, vp]
      rw [hd]
      rw [hd] at hr
      have hsq : distance (X i x y) ^ 2 = (X i x y).1 ^ 2 + (X i x y).2 ^ 2 := Real.sq_sqrt (add_nonneg (sq_nonneg _) (sq_nonneg _))
      generalize distance (X i x y) = r at hr hsq
      generalize (X i x y) = P at hsq
      generalize p i x y = v
      field_simp
      rw [hsq]
      ring
  refine ⟨⟨s.time, m.vertices, S, R, Q, position b.body1, position b.body2⟩, fun i x y => (p i x y).a, vr, vp, ?_, rfl, rfl, rfl, rfl,
    ⟨hS.trans hp.1, hSg⟩, ⟨hR.trans hpc, hRg⟩, ⟨hQ.trans hpc, hQg⟩, cell, ?_, ?_⟩
  · unfold diagnosticFields
    rw [hst.bodies, Outcome.bind_ok, ep, Outcome.bind_ok, epc, Outcome.bind_ok, eS, Outcome.bind_ok, eR, Outcome.bind_ok, eQ, Outcome.map_ok]
  · rw [diskMass_ok hm hst.blocks]
    refine congrArg Outcome.ok (leafSum_congr fun i c hi => ?_)
    refine Finset.sum_congr rfl fun x hx => Finset.sum_congr rfl fun y hy => ?_
    obtain ⟨_, _, _, _, _, h, _⟩ := cell i c hi x (Finset.mem_range.1 hx) y (Finset.mem_range.1 hy)
    beta_reduce
    rw [h]
  · rw [diskAngmom_ok hm hst.blocks]
    refine congrArg Outcome.ok (leafSum_congr fun i c hi => ?_)
    refine Finset.sum_congr rfl fun x hx => Finset.sum_congr rfl fun y hy => ?_
    obtain ⟨P, r, rfl, hr, h0, h, hm1, hm2⟩ := cell i c hi x (Finset.mem_range.1 hx) y (Finset.mem_range.1 hy)
    have hsq : r ^ 2 = (X i x y).1 ^ 2 + (X i x y).2 ^ 2 := by
      rw [hr]
      exact Real.sq_sqrt (add_nonneg (sq_nonneg _) (sq_nonneg _))
    have hlz := lz_eq m.conserveLinear (f i x y) (x := X i x y) fun _ => by
      rw [← hsq]
      positivity
    show lz m.conserveLinear (f i x y) (X i x y) * _ = (p i x y).a * vp i x y * distance (X i x y) * _
    rw [hlz, hm1, hm2, ← hr]
    congr 1
    generalize X i x y = P at hsq
    generalize p i x y = v
    generalize vr i x y = v1
    generalize vp i x y = v2
    field_simp
    linear_combination (-(v.a * v2)) * hsq

/-- The state at the start of the program with its default parameters. -/
example (lin : Bool) : ∃ m s d, m.conserveLinear = lin ∧ diagnosticFields m s = .ok d := by
  obtain ⟨n, m, s, b, _, h1, h2, _, _, hE, hl, _⟩ := start_partial exShift_total (defaults_sensible lin) defaultFocus (.inl (by norm_num [defaults]))
  have hl' : m.conserveLinear = lin := hl
  obtain ⟨f, h2⟩ : ∃ f, StateData lin m 24 s f b := ⟨_, h2⟩
  have h1 : MeshData lin m 4 24 := h1
  rw [← hl'] at h1 h2
  obtain ⟨d, _, _, _, e, _⟩ := diagnostic_fields h1 h2 fun _ _ _ => .inr (by norm_num)
  exact ⟨m, s, d, hl', e⟩

end Verif.Binary
