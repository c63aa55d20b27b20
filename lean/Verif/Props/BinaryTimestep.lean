import Verif.Props.BinarySetup

/-!
# C94: the time step of the binary program
-/

namespace Verif.Binary

open Verif Verif.Nd Verif.Tree Iso2d Geometry TwoBody

variable {sh : Nat → Outcome Nat}

/-- The speeds of the gas in the mode that conserves linear momentum. -/
theorem recoverPrimitive_linear {m : SolverData} {D N : Nat} (hm : MeshData true m D N) {s : Solution} {f : Index 2 → Nat → Nat → Tri} {b : State}
    (hst : StateData true m N s f b) : ∃ p0 : Quad Tri, recoverPrimitive true m s = .ok p0 ∧
      Blocks m.vertices p0 N N fun i x y => ⟨(f i x y).a, (f i x y).b / (f i x y).a, (f i x y).c / (f i x y).a⟩ := by
  have hN := hm.shaped.pos
  have hNN : N * N < 2 ^ 31 := hm.shaped.of_le (by omega) (by omega)
  obtain ⟨u, e, hu⟩ := hst.blocks.mapM (F := fun U => evaluate (U.mapO fun u => recoverCell true u (0, 0)))
    (g := fun i x y => ⟨(f i x y).a, (f i x y).b / (f i x y).a, (f i x y).c / (f i x y).a⟩) (k := N) (l := N) fun i B hi hB => by
    obtain ⟨c, hc⟩ := (hst.blocks.1 i).1 ⟨B, hi⟩
    exact (hB.mapO (u := fun u => recoverCell true u (0, 0)) fun x hx y hy => by
      have := hst.density i c hc x hx y hy
      unfold recoverCell recover
      rw [if_neg this.ne', if_pos rfl, if_neg (not_lt.2 this.le)]).evaluate hN hN hNN
  refine ⟨u, ?_, hu⟩
  unfold recoverPrimitive
  rw [if_pos rfl]
  exact e

theorem maxWavespeed_eq (P : Tri) {c : ℝ} (hc : 0 ≤ c) : maxWavespeed P c = max |P.b| |P.c| + Real.sqrt c := by
  have h0 := Real.sqrt_nonneg c
  have key : ∀ v : ℝ, max |v - Real.sqrt c| |v + Real.sqrt c| = |v| + Real.sqrt c := by
    intro v
    apply le_antisymm
    · refine max_le ?_ ?_
      · have := abs_sub v (Real.sqrt c)
        rwa [abs_of_nonneg h0] at this
      · have := abs_add_le v (Real.sqrt c)
        rwa [abs_of_nonneg h0] at this
    · rcases le_total 0 v with h | h
      · refine le_max_of_le_right ?_
        rw [abs_of_nonneg h, abs_of_nonneg (by linarith)]
      · refine le_max_of_le_left ?_
        rw [abs_of_nonpos h, abs_of_nonpos (by linarith)]
        linarith
  unfold maxWavespeed wavespeeds velocityAlong UnitVec.project
  dsimp only
  simp only [one_mul, zero_mul, add_zero, zero_add, mul_zero, mul_one]
  rw [key, key, max_add_add_right]

/-- **C94**: in the mode that conserves linear momentum, the largest time step is positive, in this time no signal crosses a cell along an axis, and
in one of the cells a signal just crosses it.  `c` is the square of the speed of sound in a cell. -/
theorem timestep_partial (hs : TotalShift sh) {m : SolverData} {D N : Nat} (hl : m.conserveLinear = true) (hm : MeshData true m D N) {s : Solution}
    {f : Index 2 → Nat → Nat → Tri} {b : State} (hst : StateData true m N s f b)
    (hax : m.params.axisymmetric = true → ∀ i B, LeafAt m.vertices i B → i.level ≠ 0 ∨ N % 2 = 0) :
    ∃ c : Index 2 → Nat → Nat → ℝ, (∀ i B, LeafAt m.vertices i B → ∀ x, x < N → ∀ y, y < N →
        0 < c i x y ∧ cs2At m.params b (cellCenter m.params.domainRadius N i x y) = .ok (c i x y)) ∧
      ∃ d > 0, maximumTimestep sh m s = .ok d ∧
        (∀ i B, LeafAt m.vertices i B → ∀ x, x < N → ∀ y, y < N →
          d * (|(f i x y).b / (f i x y).a| + Real.sqrt (c i x y)) ≤ cellSize m.params.domainRadius N i ∧
          d * (|(f i x y).c / (f i x y).a| + Real.sqrt (c i x y)) ≤ cellSize m.params.domainRadius N i) ∧
        ∃ i B, LeafAt m.vertices i B ∧ ∃ x, x < N ∧ ∃ y, y < N ∧
          (d * (|(f i x y).b / (f i x y).a| + Real.sqrt (c i x y)) = cellSize m.params.domainRadius N i ∨
          d * (|(f i x y).c / (f i x y).a| + Real.sqrt (c i x y)) = cellSize m.params.domainRadius N i) := by
  have hN := hm.shaped.pos
  have hN64 : N < 2 ^ 64 := by have := hm.shaped.lt; omega
  have hcell : ∀ i x y, ∃ c : ℝ, (∃ B, LeafAt m.vertices i B) →
      0 < c ∧ cs2At m.params b (cellCenter m.params.domainRadius N i x y) = .ok c := by
    classical
    intro i x y
    by_cases h : ∃ B, LeafAt m.vertices i B
    · obtain ⟨B, hB⟩ := h
      obtain ⟨c, h1, h2⟩ := cs2At_pos hst.physical (x := cellCenter m.params.domainRadius N i x y) fun ha =>
        center_ne hm.radius hN (hax ha i B hB) x y
      exact ⟨c, fun _ => ⟨h2, h1⟩⟩
    · exact ⟨0, fun h' => absurd h' h⟩
  choose c hc using hcell
  obtain ⟨p0, ep, hp⟩ := recoverPrimitive_linear hm hst
  have hblock : ∀ i A, LeafAt s.u i A → ∃ v, blockTimestep sh m b p0 i = .ok v ∧ 0 < v ∧
      (∀ x, x < N → ∀ y, y < N → v * (max |(f i x y).b / (f i x y).a| |(f i x y).c / (f i x y).a| + Real.sqrt (c i x y)) ≤ cellSize m.params.domainRadius N i) ∧
      ∃ x, x < N ∧ ∃ y, y < N ∧ v * (max |(f i x y).b / (f i x y).a| |(f i x y).c / (f i x y).a| + Real.sqrt (c i x y)) = cellSize m.params.domainRadius N i := by
    intro i A hi
    obtain ⟨B, hB⟩ := (hst.blocks.1 i).1 ⟨A, hi⟩
    have hlev : i.level ≤ 30 := (hm.shaped.depth i B hB).trans hm.shaped.small
    obtain ⟨X, hX, eX⟩ := at_ok hs.1 hm.centers.1 hB (by omega)
    obtain ⟨P, hP, eP⟩ := at_ok hs.1 hp.1 hB (by omega)
    obtain ⟨W, eW, hW⟩ := (hp.2 i P hP).binaryOpO (hm.centers.2 i X hX)
      (u := fun p x => (cs2At m.params b x).bind fun c => if c < 0 then .ub else .ok (maxWavespeed p c))
      (x := fun x y => max |(f i x y).b / (f i x y).a| |(f i x y).c / (f i x y).a| + Real.sqrt (c i x y)) fun x _ y _ => by
        obtain ⟨h1, h2⟩ := hc i x y ⟨B, hB⟩
        rw [h2, Outcome.bind_ok, if_neg (not_lt.2 h1.le), maxWavespeed_eq _ h1.le]
    obtain ⟨w, ew, ⟨x0, hx0, y0, hy0, hw⟩, hle⟩ := hW.maxBy hN hN hN64 hN64 0
    have hwpos : 0 < w := by
      rw [hw]
      exact add_pos_of_nonneg_of_pos (le_max_of_le_left (abs_nonneg _)) (Real.sqrt_pos.2 (hc i x0 y0 ⟨B, hB⟩).1)
    have hsz := cellSize_pos hm.radius hN i
    refine ⟨cellSize m.params.domainRadius N i / w, ?_, div_pos hsz hwpos, fun x hx y hy => ?_, x0, hx0, y0, hy0, ?_⟩
    · unfold blockTimestep
      rw [eX, Outcome.bind_ok, eP, Outcome.bind_ok, blockSpacing_ok hs.1 hm hlev, Outcome.bind_ok, eW, Outcome.bind_ok]
      have ew' : minBy (fun x y => @decide (x > y) (Classical.propDecidable _)) 0 W = .ok w := by convert ew
      rw [ew', Outcome.bind_ok, if_neg hwpos.ne']
    · rw [div_mul_eq_mul_div, div_le_iff₀ hwpos]
      exact mul_le_mul_of_nonneg_left (hle x hx y hy) hsz.le
    · rw [← hw, div_mul_cancel₀ _ hwpos.ne']
  have hdep : DepthLe s.u D := hm.shaped.depth.sameShape hst.blocks.1
  have hsmall := hm.shaped.small
  obtain ⟨t, et, hsh, ht⟩ := mapIndexes_ok (P := fun i v => 0 < v ∧
      (∀ x, x < N → ∀ y, y < N → v * (max |(f i x y).b / (f i x y).a| |(f i x y).c / (f i x y).a| + Real.sqrt (c i x y)) ≤ cellSize m.params.domainRadius N i) ∧
      ∃ x, x < N ∧ ∃ y, y < N ∧ v * (max |(f i x y).b / (f i x y).a| |(f i x y).c / (f i x y).a| + Real.sqrt (c i x y)) = cellSize m.params.domainRadius N i)
    s.u D hdep (by omega) hblock
  obtain ⟨g1, g2, _, _⟩ := tree_min_max t
  rw [sink_eq_leaves] at g1 g2
  obtain ⟨i, hi⟩ := mem_leaves_leafAt g1
  obtain ⟨q1, q2, x0, hx0, y0, hy0, q3⟩ := (ht i _ hi).2
  refine ⟨c, fun i B hB x _ y _ => hc i x y ⟨B, hB⟩, t.min, q1, ?_, fun j B hj x hx y hy => ?_, ?_⟩
  · unfold maximumTimestep
    rw [hl, ep, Outcome.bind_ok, hst.bodies, Outcome.bind_ok, et, Outcome.map_ok]
  · obtain ⟨A, hA⟩ := (hst.blocks.1 j).2 ⟨B, hj⟩
    obtain ⟨v, hv⟩ := (hsh j).2 ⟨A, hA⟩
    obtain ⟨_, r2, _⟩ := (ht j v hv).2
    have hmin := g2 v (leafAt_mem_leaves hv)
    have h3 := r2 x hx y hy
    have h0 := Real.sqrt_nonneg (c j x y)
    have ha := abs_nonneg ((f j x y).b / (f j x y).a)
    have ha' := abs_nonneg ((f j x y).c / (f j x y).a)
    constructor
    · refine le_trans ?_ h3
      exact mul_le_mul hmin (add_le_add (le_max_left _ _) le_rfl) (by linarith) (le_trans q1.le hmin)
    · refine le_trans ?_ h3
      exact mul_le_mul hmin (add_le_add (le_max_right _ _) le_rfl) (by linarith) (le_trans q1.le hmin)
  · obtain ⟨A, hA⟩ := (hsh i).1 ⟨_, hi⟩
    obtain ⟨B, hB⟩ := (hst.blocks.1 i).1 ⟨A, hA⟩
    refine ⟨i, B, hB, x0, hx0, y0, hy0, ?_⟩
    rcases max_choice |(f i x0 y0).b / (f i x0 y0).a| |(f i x0 y0).c / (f i x0 y0).a| with h | h
    · left
      rw [← q3, h]
    · right
      rw [← q3, h]

/-- Non-vacuity: the initial state of a run with the default values. -/
example : ∃ (m : SolverData) (s : Solution) (f : Index 2 → Nat → Nat → Tri) (b : State), m.conserveLinear = true ∧ MeshData true m 4 24 ∧
    StateData true m 24 s f b ∧ (m.params.axisymmetric = true → ∀ i B, LeafAt m.vertices i B → i.level ≠ 0 ∨ 24 % 2 = 0) := by
  obtain ⟨m, s, f, b, _, _, hl, h1, h2, _⟩ := step_exists true 0 (fun _ => false) false
  rw [hl] at h1 h2
  exact ⟨m, s, f, b, hl, h1, h2, fun _ _ _ _ => Or.inr (by norm_num)⟩

/-- **C94** does not hold in the mode that conserves angular momentum on a mesh that is divided: the conserved quantities of the other mode are one
leaf, and the time step is asked for its index, which is not that of a block.  The exception leaves the run. -/
theorem timestep_angmom_violated (hs : TotalShift sh) {m : SolverData} {D N : Nat} (hl : m.conserveLinear = false) (hm : MeshData false m D N)
    {s : Solution} {f : Index 2 → Nat → Nat → Tri} {b : State} (hst : StateData false m N s f b) (hu : s.u = emptyTree) (hfix : m.fixedDt = false)
    (hdiv : ∀ i B, LeafAt m.vertices i B → 1 ≤ i.level) :
    maximumTimestep sh m s = .throws .badVariantAccess ∧ ∀ fuel z, nextSolution sh fuel z m s = .throws .badVariantAccess := by
  have h : maximumTimestep sh m s = .throws .badVariantAccess := by
    obtain ⟨p0, p, ep, hp⟩ := recoverPrimitive_ok hm hst
    unfold maximumTimestep
    rw [hl, ep, Outcome.bind_ok, hst.bodies, Outcome.bind_ok, hu]
    have hint : InteriorAt m.centers .root := by
      cases hX : m.centers with
      | leaf A =>
        have : LeafAt m.centers .root A := by rw [hX]; exact .here _
        obtain ⟨B, hB⟩ := (hm.centers.1 _).1 ⟨A, this⟩
        have := hdiv _ _ hB
        simp [Index.root] at this
      | node c => exact ⟨c, .here _⟩
    have hat := (tree_at hs.1 m.centers .root (by simp [Index.root])).2.1 hint
    show ((blockTimestep sh m b p0 .root).map Tree.leaf).map _ = _
    unfold blockTimestep
    rw [hat]
    rfl
  refine ⟨h, fun fuel z => ?_⟩
  unfold nextSolution
  rw [if_neg (by rw [hfix]; decide), h]
  rfl

/-- Non-vacuity: a run with the default values except for `conserve_linear_p`, which ends before its first step. -/
example : ∃ n m s, ∀ fuel, n ≤ fuel → createSolverData exShift defaultFocus fuel { defaults with conserveLinear := false } = .ok m ∧
    createSolution exShift defaultFocus fuel { defaults with conserveLinear := false } = .ok s ∧
    ∀ z, nextSolution exShift fuel z m s = .throws .badVariantAccess := by
  obtain ⟨n, m, s, b, h, h1, h2, _, _, _, hl, _, _, hf, _, hu, hd, _⟩ := start_partial exShift_total (defaults_sensible false) defaultFocus
    (.inl (by norm_num [defaults]))
  refine ⟨n, m, s, fun fuel hfu => ⟨(h fuel hfu).1, (h fuel hfu).2, fun z => ?_⟩⟩
  exact (timestep_angmom_violated exShift_total hl h1 h2 (hu rfl) hf (hd ⟨0, by norm_num [defaults], fun ρ => by simp [defaultFocus]⟩)).2 fuel z

end Verif.Binary
