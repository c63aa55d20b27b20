import Verif.Lemmas.BinaryFlux

/-!
# The corrected fluxes of the binary program
-/

namespace Verif.Binary

open Verif Verif.Nd Verif.Tree Iso2d Geometry TwoBody

variable {sh : Nat → Outcome Nat}

/-- The components of a tuple as homomorphisms. -/
noncomputable def homA : Tri →+ ℝ := ⟨⟨Tri.a, rfl⟩, fun _ _ => rfl⟩
noncomputable def homB : Tri →+ ℝ := ⟨⟨Tri.b, rfl⟩, fun _ _ => rfl⟩
noncomputable def homC : Tri →+ ℝ := ⟨⟨Tri.c, rfl⟩, fun _ _ => rfl⟩

theorem coordinate_lower {rd : ℝ} {N : Nat} {i : Index 2} {a : Fin 2} (h : AtLower a i) : coordinate rd N i a (0 : Nat) = -rd := by
  unfold AtLower at h
  unfold coordinate
  rw [h]
  simp

theorem coordinate_upper {rd : ℝ} {N : Nat} (hN : 1 ≤ N) {i : Index 2} {a : Fin 2} (h : AtUpper a i) : coordinate rd N i a N = rd := by
  unfold AtUpper at h
  have hN' : (N : ℝ) ≠ 0 := by exact_mod_cast (by omega : N ≠ 0)
  have h' : (i.coords a : ℝ) + 1 = 2 ^ i.level := by exact_mod_cast h
  unfold coordinate cellSize
  rw [← h', show ((i.coords a : ℝ) * N + N) = N * (i.coords a + 1) by ring]
  have : (i.coords a : ℝ) + 1 ≠ 0 := by rw [h']; positivity
  field_simp
  ring

theorem angmomFluxes_edge0 {rd : ℝ} {x : ℝ × ℝ} (f : Tri) (h : x.1 = -rd ∨ x.1 = rd) : (toAngmomFluxes 0 rd x f).c = 0 := by
  simp [toAngmomFluxes, h]

theorem angmomFluxes_edge1 {rd : ℝ} {x : ℝ × ℝ} (f : Tri) (h : x.2 = -rd ∨ x.2 = rd) : (toAngmomFluxes 1 rd x f).c = 0 := by
  simp [toAngmomFluxes, h]

/-- No angular momentum flows through the edge of the domain. -/
theorem intercell_edge {s : Params} {b : TwoBody.State} {a : Fin 2} {h : ℝ} {N : Nat} {i : Index 2} {x y : Nat} {p g t : Tri × Tri} {v : Tri}
    (he : coordinate s.domainRadius N i a x = -s.domainRadius ∨ coordinate s.domainRadius N i a x = s.domainRadius)
    (hv : intercell false s a b h (facePos s.domainRadius N a i x y) p g t = .ok v) : v.c = 0 := by
  unfold intercell intercellFluxQ at hv
  rw [if_neg (by decide)] at hv
  obtain ⟨f, _, rfl⟩ := Outcome.map_eq_ok.1 hv
  fin_cases a
  · exact angmomFluxes_edge0 f he
  · exact angmomFluxes_edge1 f he

/-- The fluxes of the blocks before the correction: blocks of the same level agree on the sides that they share, and in the angular momentum
conserving mode no angular momentum leaves the domain. -/
structure RawFluxes {β : Type} (lin : Bool) (T : Verif.Tree.Tree 2 β) (N : Nat) (a : Fin 2) (t : Quad Tri) (F : Index 2 → Nat → Nat → Tri) : Prop where
  shape : SameShape t T
  along : ∀ i b, LeafAt t i b → Along a b (N + 1) N (F i)
  same : ∀ i j b c, LeafAt T i b → LeafAt T j c → Follows False a i j → ∀ y, y < N → F i N y = F j 0 y
  lower : lin = false → ∀ i b, LeafAt T i b → AtLower a i → ∀ y, y < N → (F i 0 y).c = 0
  upper : lin = false → ∀ i b, LeafAt T i b → AtUpper a i → ∀ y, y < N → (F i N y).c = 0

/-- The fluxes after the correction. -/
structure Fluxes {β : Type} (lin : Bool) (T : Verif.Tree.Tree 2 β) (N : Nat) (a : Fin 2) (t : Quad Tri) (g : Index 2 → Nat → Nat → Tri) : Prop where
  shape : SameShape t T
  along : ∀ i b, LeafAt t i b → Along a b (N + 1) N (g i)
  total : leafSum T (fun i _ => ∑ x ∈ Finset.range N, ∑ y ∈ Finset.range N, (g i (x + 1) y - g i x y)) = outflow T N a g
  closed : lin = false → (outflow T N a g).c = 0

theorem Fluxes.cells {β : Type} {lin : Bool} {T : Verif.Tree.Tree 2 β} {N : Nat} {a : Fin 2} {t : Quad Tri} {g : Index 2 → Nat → Nat → Tri}
    (h : Fluxes lin T N a t g) : cellSum T N (fun i => turn a fun x y => g i (x + 1) y - g i x y) = outflow T N a g := by
  rw [← h.total]
  unfold cellSum
  fin_cases a
  · rfl
  · exact leafSum_congr fun i b _ => Finset.sum_comm

theorem correct_ok {β : Type} (hs : TotalShift sh) {lin : Bool} {T : Verif.Tree.Tree 2 β} {D N : Nat} (hT : Shaped T D N) {a : Fin 2} {t : Quad Tri}
    {F : Index 2 → Nat → Nat → Tri} (h : RawFluxes lin T N a t F) :
    ∃ (t' : Quad Tri) (g : Index 2 → Nat → Nat → Tri), correctFluxes sh a t = .ok t' ∧ Fluxes lin T N a t' g ∧
      ∀ i b, LeafAt t i b → (∀ x y, 0 < x → x < N → y < N → g i x y = F i x y) ∧ LowerCorrected a N t F i (g i 0) ∧ UpperCorrected a N t F i (g i N) := by
  have hD := hT.depth.sameShape h.shape
  have hb := hT.balanced.sameShape h.shape
  have h30 := hT.small
  have hN := hT.pos
  have toT : ∀ {i c}, LeafAt t i c → ∃ d, LeafAt T i d := fun hi => (h.shape _).1 ⟨_, hi⟩
  have ofT : ∀ {i c}, LeafAt T i c → ∃ d, LeafAt t i d := fun hi => (h.shape _).2 ⟨_, hi⟩
  obtain ⟨t', g, e, hsh, hg, hc⟩ := flux_correction_partial hs t D hD h30 hb a N hN (hT.of_le (by omega) (by omega)) F h.along
  have hmat := corrected_matched False t a N F g (fun i j b c hi hj hf => by
    obtain ⟨_, hi'⟩ := toT hi
    obtain ⟨_, hj'⟩ := toT hj
    exact h.same i j _ _ hi' hj' hf) fun i b hi => (hc i b hi).2
  refine ⟨t', g, e, ⟨hsh.trans h.shape, hg, ?_, fun hlin => ?_⟩, hc⟩
  · have := hmat.total hb D hD h30
    unfold outflow
    rw [← leafSum_sameShape h.shape (fun i => if AtUpper a i then _ else 0), ← leafSum_sameShape h.shape (fun i => if AtLower a i then _ else 0),
      ← leafSum_sameShape h.shape (fun i => _), ← this]
    exact leafSum_congr fun i b _ => sum_differences N (g i)
  · have hup : ∀ i b, LeafAt T i b → AtUpper a i → ∀ y, y < N → (g i N y).c = 0 := by
      intro i b hi hat y hy
      obtain ⟨c, hi'⟩ := ofT hi
      have hlev := hD i c hi'
      obtain ⟨j, _, hjv, hj⟩ := nextOn_follows hs.1 hi'.valid (by omega) a
      obtain ⟨h1, h2, h3⟩ := (hc i c hi').2.2 j hjv hj
      rcases neighbour_node hb hi' (by omega) (.inr ⟨hj.neighbour hjv, hjv⟩) with ⟨d, hd⟩ | ⟨d, n, hd, hjn, h0⟩ | ⟨d, hd⟩
      · rw [h1 d hd y hy]
        exact h.upper hlin i b hi hat y hy
      · rw [h2 _ d n hd hjn y hy]
        exact h.upper hlin i b hi hat y hy
      · rw [h3 d hd y hy]
        have hj0 : j.coords a = 0 := by
          have := hjv a
          unfold AtUpper at hat
          rw [← hj.1] at this
          rcases hj.2.2 with h4 | h4
          · omega
          · exact h4.2.2
        have key : ∀ m y, y < N → (F (j.child (corner a false m)) 0 y).c = 0 := by
          intro m y hy
          obtain ⟨_, hm⟩ := toT (nodeAt_child hd (corner a false m))
          refine h.lower hlin _ _ hm ?_ y hy
          show 2 * j.coords a + ((corner a false m : Nat).testBit a).toNat = 0
          rw [hj0, corner_bit]
          rfl
        have side : ∀ y, y < 2 * N → (sideFluxes N a false (fun i => F i 0) j y).c = 0 := by
          intro y hy
          unfold sideFluxes
          split
          · exact key _ _ (by assumption)
          · exact key _ _ (by omega)
        show (sideFluxes N a false (fun i => F i 0) j (2 * y)).c + (sideFluxes N a false (fun i => F i 0) j (2 * y + 1)).c = 0
        rw [side _ (by omega), side _ (by omega), add_zero]
    have hlo : ∀ i b, LeafAt T i b → AtLower a i → ∀ y, y < N → (g i 0 y).c = 0 := by
      intro i b hi hat y hy
      obtain ⟨c, hi'⟩ := ofT hi
      have hlev := hD i c hi'
      obtain ⟨j, _, hjv, hj⟩ := prevOn_follows hs.1 hi'.valid (by omega) a
      obtain ⟨h1, h2, h3⟩ := (hc i c hi').2.1 j hjv hj
      rcases neighbour_node hb hi' (by omega) (.inr ⟨(hj.neighbour hi'.valid).symm, hjv⟩) with ⟨d, hd⟩ | ⟨d, n, hd, hjn, h0⟩ | ⟨d, hd⟩
      · rw [h1 d hd y hy]
        exact h.lower hlin i b hi hat y hy
      · rw [h2 _ d n hd hjn y hy]
        exact h.lower hlin i b hi hat y hy
      · rw [h3 d hd y hy]
        have hj0 : j.coords a + 1 = 2 ^ j.level := by
          unfold AtLower at hat
          rcases hj.2.2 with h4 | h4
          · omega
          · exact h4.2.1
        have key : ∀ m y, y < N → (F (j.child (corner a true m)) N y).c = 0 := by
          intro m y hy
          obtain ⟨_, hm⟩ := toT (nodeAt_child hd (corner a true m))
          refine h.upper hlin _ _ hm ?_ y hy
          show 2 * j.coords a + ((corner a true m : Nat).testBit a).toNat + 1 = 2 ^ (j.level + 1)
          rw [corner_bit, pow_succ, ← hj0]
          show 2 * j.coords a + 1 + 1 = _
          ring
        have side : ∀ y, y < 2 * N → (sideFluxes N a true (fun i => F i N) j y).c = 0 := by
          intro y hy
          unfold sideFluxes
          split
          · exact key _ _ (by assumption)
          · exact key _ _ (by omega)
        show (sideFluxes N a true (fun i => F i N) j (2 * y)).c + (sideFluxes N a true (fun i => F i N) j (2 * y + 1)).c = 0
        rw [side _ (by omega), side _ (by omega), add_zero]
    have sumc : ∀ f : Nat → Tri, (∑ y ∈ Finset.range N, f y).c = ∑ y ∈ Finset.range N, (f y).c := fun f => map_sum homC f _
    have e1 : (leafSum T (fun i _ => if AtUpper a i then ∑ y ∈ Finset.range N, g i N y else 0)).c = 0 := by
      refine (leafSum_hom homC _ T).symm.trans ?_
      refine leafSumAt_zero (.here T) fun i b hi => ?_
      by_cases hat : AtUpper a i
      · rw [if_pos hat]
        refine (sumc _).trans (Finset.sum_eq_zero fun y hy => hup i b hi hat y (Finset.mem_range.1 hy))
      · rw [if_neg hat]; rfl
    have e2 : (leafSum T (fun i _ => if AtLower a i then ∑ y ∈ Finset.range N, g i 0 y else 0)).c = 0 := by
      refine (leafSum_hom homC _ T).symm.trans ?_
      refine leafSumAt_zero (.here T) fun i b hi => ?_
      by_cases hat : AtLower a i
      · rw [if_pos hat]
        refine (sumc _).trans (Finset.sum_eq_zero fun y hy => hlo i b hi hat y (Finset.mem_range.1 hy))
      · rw [if_neg hat]; rfl
    show _ - _ = (0 : ℝ)
    rw [e1, e2, sub_zero]

/-! ### All fluxes -/

theorem Extended.shared {β : Type} {T : Verif.Tree.Tree 2 β} {N : Nat} (hN : 1 ≤ N) {a : Fin 2} {u : Quad Tri} {f g : Index 2 → Nat → Nat → Tri}
    (h : Extended T N a u f g) {i j : Index 2} {b c : β} (hi : LeafAt T i b) (hj : LeafAt T j c) (hf : Follows False a i j) {y : Nat} (hy : y < N) :
    g i N y = g j 0 y ∧ g i (N + 1) y = g j (0 + 1) y := by
  constructor
  · have := h.inner i b hi (N - 1) (by omega) y hy
    rw [Nat.sub_add_cancel hN] at this
    rw [this, h.lower i j b c hi hj (follows_mono hf) y hy]
  · rw [h.upper i j b c hi hj (follows_mono hf) y hy, h.inner j c hj 0 (by omega) y hy]

theorem recoverCell_ok {lin : Bool} {u : Tri} {x : ℝ × ℝ} (hu : 0 < u.a) (hx : lin = false → x.1 * x.1 + x.2 * x.2 ≠ 0) :
    ∃ p, recoverCell lin u x = .ok p ∧ p.a = u.a := by
  unfold recoverCell
  rw [if_neg hu.ne']
  cases lin with
  | true =>
    rw [if_pos rfl]
    unfold recover
    rw [if_neg (not_lt.2 hu.le)]
    exact ⟨_, rfl, rfl⟩
  | false =>
    rw [if_neg (by decide), if_neg (hx rfl)]
    unfold recoverAngmom
    rw [if_neg (not_lt.2 hu.le)]
    exact ⟨_, rfl, rfl⟩

theorem recoverPrimitive_cells {lin : Bool} {m : SolverData} {D N : Nat} (hm : MeshData lin m D N) {s : Solution} {f : Index 2 → Nat → Nat → Tri} {b : State}
    (hst : StateData lin m N s f b) : ∃ (p0 : Quad Tri) (p : Index 2 → Nat → Nat → Tri), recoverPrimitive lin m s = .ok p0 ∧ Blocks m.vertices p0 N N p ∧
      ∀ i c, LeafAt m.vertices i c → ∀ x, x < N → ∀ y, y < N →
        recoverCell lin (f i x y) (if lin then (0, 0) else cellCenter m.params.domainRadius N i x y) = .ok (p i x y) := by
  have hN := hm.shaped.pos
  have hNN : N * N < 2 ^ 31 := hm.shaped.of_le (by omega) (by omega)
  have hcell : ∀ i c, LeafAt m.vertices i c → ∀ x, x < N → ∀ y, y < N → ∀ q, (lin = false → q = cellCenter m.params.domainRadius N i x y) →
      ∃ p, recoverCell lin (f i x y) q = .ok p := by
    intro i c hi x hx y hy q hq
    obtain ⟨p, hp, _⟩ := recoverCell_ok (lin := lin) (x := q) (hst.density i c hi x hx y hy) fun hl => by
      rw [hq hl]
      exact center_ne hm.radius hN (hst.offCenter hl i c hi) x y
    exact ⟨p, hp⟩
  have hfun : ∀ i, ∃ p : Nat → Nat → Tri, (∃ c, LeafAt m.vertices i c) → ∀ x, x < N → ∀ y, y < N →
      recoverCell lin (f i x y) (if lin then (0, 0) else cellCenter m.params.domainRadius N i x y) = .ok (p x y) := by
    classical
    intro i
    by_cases hi : ∃ c, LeafAt m.vertices i c
    · obtain ⟨c, hi⟩ := hi
      have : ∀ x y, ∃ p, x < N → y < N → recoverCell lin (f i x y) (if lin then (0, 0) else cellCenter m.params.domainRadius N i x y) = .ok p := by
        intro x y
        by_cases hxy : x < N ∧ y < N
        · obtain ⟨p, hp⟩ := hcell i c hi x hxy.1 y hxy.2 (if lin then (0, 0) else cellCenter m.params.domainRadius N i x y)
            (fun hl => by rw [hl]; rfl)
          exact ⟨p, fun _ _ => hp⟩
        · exact ⟨0, fun h1 h2 => absurd ⟨h1, h2⟩ hxy⟩
      choose p hp using this
      exact ⟨p, fun _ x hx y hy => hp x y hx hy⟩
    · exact ⟨fun _ _ => 0, fun h => absurd h hi⟩
  choose p hp using hfun
  cases lin with
  | true =>
    obtain ⟨u, g, e, hsh, hl⟩ := mapM_choose (f := fun U : Arr 2 Tri => evaluate (U.mapO fun u => recoverCell true u (0, 0)))
      (P := fun i B (_ : Unit) => Grid B N N (p i)) s.u (fun i c hi => by
        obtain ⟨E, eE, hE⟩ := ((hst.blocks.2 i c hi).mapO (u := fun u => recoverCell true u (0, 0)) (hp i ((hst.blocks.1 i).1 ⟨c, hi⟩))).evaluate hN hN hNN
        exact ⟨E, (), eE, hE⟩)
    refine ⟨u, p, ?_, ⟨hsh.trans hst.blocks.1, hl⟩, fun i c hi => hp i ⟨c, hi⟩⟩
    unfold recoverPrimitive
    rw [if_pos rfl, e]
  | false =>
    have hsq : SameShape s.q m.centers := hst.blocks.1.trans hm.centers.1.symm
    obtain ⟨r, er, hr, hrl⟩ := pair_ok hsq
    obtain ⟨u, g, e, hsh, hl⟩ := mapM_choose (f := fun QX : Arr 2 Tri × Arr 2 (ℝ × ℝ) => (binaryOpO (recoverCell false) QX.1 QX.2).bind evaluate)
      (P := fun i B (_ : Unit) => Grid B N N (p i)) r (fun i c hi => by
        obtain ⟨h1, h2⟩ := hrl i c hi
        obtain ⟨C, eC, hC⟩ := (hst.blocks.2 i _ h1).binaryOpO (hm.centers.2 i _ h2) (hp i ((hst.blocks.1 i).1 ⟨_, h1⟩))
        obtain ⟨E, eE, hE⟩ := hC.evaluate hN hN hNN
        exact ⟨E, (), by rw [eC, Outcome.bind_ok, eE], hE⟩)
    refine ⟨u, p, ?_, ⟨(hsh.trans hr).trans hst.blocks.1, hl⟩, fun i c hi => hp i ⟨c, hi⟩⟩
    unfold recoverPrimitive
    rw [if_neg (by decide), er, Outcome.bind_ok, e]

theorem recoverPrimitive_ok {lin : Bool} {m : SolverData} {D N : Nat} (hm : MeshData lin m D N) {s : Solution} {f : Index 2 → Nat → Nat → Tri} {b : State}
    (hst : StateData lin m N s f b) : ∃ (p0 : Quad Tri) (p : Index 2 → Nat → Nat → Tri), recoverPrimitive lin m s = .ok p0 ∧ Blocks m.vertices p0 N N p := by
  obtain ⟨p0, p, e, h, _⟩ := recoverPrimitive_cells hm hst
  exact ⟨p0, p, e, h⟩

/-- The value of the flux through a face, from the states and derivatives in the cells around it. -/
def FluxAt (lin : Bool) (m : SolverData) (b : State) (N : Nat) (a : Fin 2) (p g h : Index 2 → Nat → Nat → Tri) (i : Index 2) (F : Nat → Nat → Tri) : Prop :=
  ∀ x, x < N + 1 → ∀ y, y < N → ∃ v, intercell lin m.params a b (cellSize m.params.domainRadius N i)
    (facePos m.params.domainRadius N a i x y) (p i x y, p i (x + 1) y) (g i x y, g i (x + 1) y) (h i x y, h i (x + 1) y) = .ok v ∧
    F x y = v.mul (cellSize m.params.domainRadius N i)

theorem rawFluxes {lin : Bool} {m : SolverData} {D N : Nat} (hm : MeshData lin m D N) {b : State} {a : Fin 2} {pe ge he : Quad Tri}
    {p p' g g' h h' : Index 2 → Nat → Nat → Tri} (hP : Extended m.vertices N a pe p p') (hG : Extended m.vertices N a ge g g')
    (hH : Extended m.vertices N a he h h') {t : Quad Tri} {F : Index 2 → Nat → Nat → Tri} (hsh : SameShape t m.vertices)
    (hal : ∀ i b, LeafAt t i b → Along a b (N + 1) N (F i))
    (hF : ∀ i c, LeafAt m.vertices i c → FluxAt lin m b N a p' g' h' i (F i)) : RawFluxes lin m.vertices N a t F := by
  have hN := hm.shaped.pos
  refine ⟨hsh, hal, fun i j c d hi hj hf y hy => ?_, fun hl i c hi hat y hy => ?_, fun hl i c hi hat y hy => ?_⟩
  · obtain ⟨v, e1, e2⟩ := hF i c hi N (by omega) y hy
    obtain ⟨w, e3, e4⟩ := hF j d hj 0 (by omega) y hy
    obtain ⟨h1, h2⟩ := hP.shared hN hi hj hf hy
    obtain ⟨h3, h4⟩ := hG.shared hN hi hj hf hy
    obtain ⟨h5, h6⟩ := hH.shared hN hi hj hf hy
    have hcs : cellSize m.params.domainRadius N i = cellSize m.params.domainRadius N j := by unfold cellSize; rw [hf.1]
    rw [facePos_next hf, h1, h2, h3, h4, h5, h6, hcs, e3] at e1
    injection e1 with e1
    rw [e2, e4, e1, hcs]
  · obtain ⟨v, e1, e2⟩ := hF i c hi 0 (by omega) y hy
    rw [hl] at e1
    rw [e2]
    show v.c * _ = 0
    rw [intercell_edge (.inl (coordinate_lower hat)) e1, zero_mul]
  · obtain ⟨v, e1, e2⟩ := hF i c hi N (by omega) y hy
    rw [hl] at e1
    rw [e2]
    show v.c * _ = 0
    rw [intercell_edge (.inr (coordinate_upper hN hat)) e1, zero_mul]

/-- The corrected fluxes `g` along axis `a` come from the primitive quantities `p`: these get guard cells (`p'`), there are fluxes `F` through all faces, and they
are corrected.  If `zero` holds, the derivatives along the axis are zero. -/
def Flow (lin : Bool) (m : SolverData) (b : State) (N : Nat) (a : Fin 2) (zero : Prop) (p g : Index 2 → Nat → Nat → Tri) : Prop :=
  ∃ (pe : Quad Tri) (p' g' h' : Index 2 → Nat → Nat → Tri) (t : Quad Tri) (F : Index 2 → Nat → Nat → Tri), Extended m.vertices N a pe p p' ∧
    (zero → ∀ i c, LeafAt m.vertices i c → ∀ x, x < N + 2 → ∀ y, y < N → g' i x y = 0) ∧
    (∀ i c, LeafAt m.vertices i c → FluxAt lin m b N a p' g' h' i (F i)) ∧ SameShape t m.vertices ∧
    ∀ i B, LeafAt t i B → (∀ x y, 0 < x → x < N → y < N → g i x y = F i x y) ∧ LowerCorrected a N t F i (g i 0) ∧ UpperCorrected a N t F i (g i N)

theorem GuardAt.zero {β : Type} {T : Verif.Tree.Tree 2 β} {N : Nat} {f : Index 2 → Nat → Nat → Tri} {j : Index 2} {q : Nat → Nat → Tri} (h : GuardAt T N f j q)
    (h0 : ∀ i c, LeafAt T i c → ∀ x y, f i x y = 0) {x : Nat} (hx : x < N) {y : Nat} (hy : y < N) : q x y = 0 := by
  rcases h with ⟨⟨c, hc⟩, h⟩ | ⟨m, d, k, hm, h1, h2⟩ | ⟨h1, h2⟩
  · rw [h, h0 j c hc]
  · rw [h2, h0 m d hm]
  · obtain ⟨v, hv, e⟩ := h2 x hx y hy
    have hv0 : ∀ n, v n = 0 := by
      intro n
      obtain ⟨k, x', y', _, _, e'⟩ := hv n
      obtain ⟨c, hc⟩ := h1 k
      rw [e', h0 _ c hc]
    rw [e, hv0, hv0, hv0, hv0, add_zero, add_zero, add_zero]
    exact Tri.ext (zero_mul _) (zero_mul _) (zero_mul _)

theorem Extended.zero {β : Type} {T : Verif.Tree.Tree 2 β} {N : Nat} {a : Fin 2} {u : Quad Tri} {f g : Index 2 → Nat → Nat → Tri} (h : Extended T N a u f g)
    (hN : 1 ≤ N) (h0 : ∀ i c, LeafAt T i c → ∀ x y, f i x y = 0) {i : Index 2} {c : β} (hi : LeafAt T i c) {x : Nat} (hx : x < N + 2) {y : Nat} (hy : y < N) :
    g i x y = 0 := by
  have ht : ∀ (q : Nat → Nat → Tri), (∀ x, x < N → ∀ y, y < N → q x y = 0) → ∀ x, x < N → turn a q x y = 0 := by
    intro q hq x hx
    obtain rfl | rfl : a = 0 ∨ a = 1 := by fin_cases a <;> simp
    · exact hq x hx y hy
    · exact hq y hy x hx
  rcases Nat.eq_zero_or_pos x with rfl | hx0
  · obtain ⟨j, q, _, _, hq, e⟩ := h.before i c hi
    rw [e y hy]
    exact ht q (fun x hx y hy => hq.zero h0 hx hy) _ (by omega)
  · by_cases hxN : x = N + 1
    · subst hxN
      obtain ⟨j, q, _, _, hq, e⟩ := h.after i c hi
      rw [e y hy]
      exact ht q (fun x hx y hy => hq.zero h0 hx hy) _ (by omega)
    · obtain ⟨k, rfl⟩ : ∃ k, x = k + 1 := ⟨x - 1, by omega⟩
      rw [h.inner i c hi k (by omega) y hy]
      exact ht (f i) (fun x _ y _ => h0 i c hi x y) _ (by omega)

theorem stepFluxes_cells (hs : TotalShift sh) {lin : Bool} {m : SolverData} {D N : Nat} (hm : MeshData lin m D N) {s : Solution}
    {f : Index 2 → Nat → Nat → Tri} {b : State} (hst : StateData lin m N s f b) (fuel : Nat) (z : Fin 9 → Bool) (safe : Bool) :
    ∃ (p0 fx fy : Quad Tri) (p gx gy : Index 2 → Nat → Nat → Tri), stepFluxes sh (fuel + 1) z lin m s safe = .ok (p0, b, fx, fy) ∧
      Blocks m.vertices p0 N N p ∧ Fluxes lin m.vertices N 0 fx gx ∧ Fluxes lin m.vertices N 1 fy gy ∧
      (∀ i c, LeafAt m.vertices i c → ∀ x, x < N → ∀ y, y < N →
        recoverCell lin (f i x y) (if lin then (0, 0) else cellCenter m.params.domainRadius N i x y) = .ok (p i x y)) ∧
      Flow lin m b N 0 (safe = true) p gx ∧ Flow lin m b N 1 (safe = true) p gy := by
  have hN := hm.shaped.pos
  have h30 := hm.shaped.small
  obtain ⟨p0, p, ep, hp, hpc⟩ := recoverPrimitive_cells hm hst
  obtain ⟨px, px', epx, hpx⟩ := extend_ok hs hm.shaped hp 0 fuel
  obtain ⟨py, py', epy, hpy⟩ := extend_ok hs hm.shaped hp 1 fuel
  obtain ⟨gx, gx', egx, hgx, hgx0⟩ := gradients_ok hs hm z (if safe then 0 else m.params.plmTheta) 0 hpx
  obtain ⟨gy, gy', egy, hgy, hgy0⟩ := gradients_ok hs hm z (if safe then 0 else m.params.plmTheta) 1 hpy
  obtain ⟨gxx, gxx', egxx, hgxx⟩ := extend_ok hs hm.shaped hgx 0 fuel
  obtain ⟨gxy, gxy', egxy, hgxy⟩ := extend_ok hs hm.shaped hgx 1 fuel
  obtain ⟨gyx, gyx', egyx, hgyx⟩ := extend_ok hs hm.shaped hgy 0 fuel
  obtain ⟨gyy, gyy', egyy, hgyy⟩ := extend_ok hs hm.shaped hgy 1 fuel
  obtain ⟨F, G, eF, hFsh, hFl⟩ := mapIndexes_choose (f := blockFluxes sh lin m b px py gxx gxy gyx gyy)
    (P := fun i B (q : (Nat → Nat → Tri) × (Nat → Nat → Tri)) => Along 0 B.1 (N + 1) N q.1 ∧ FluxAt lin m b N 0 px' gxx' gyx' i q.1 ∧
      Along 1 B.2 (N + 1) N q.2 ∧ FluxAt lin m b N 1 py' gyy' gxy' i q.2) p0 D (hm.shaped.depth.sameShape hp.1) (by omega) (fun i c hi => by
        obtain ⟨d, hd⟩ := (hp.1 i).1 ⟨c, hi⟩
        obtain ⟨B1, F1, e1, h1, h2⟩ := axisFluxes_ok hs hm hst.physical 0 hpx hgxx hgyx i d hd
        obtain ⟨B2, F2, e2, h3, h4⟩ := axisFluxes_ok hs hm hst.physical 1 hpy hgyy hgxy i d hd
        refine ⟨(B1, B2), (F1, F2), ?_, h1, h2, h3, h4⟩
        unfold blockFluxes
        rw [e1, Outcome.bind_ok, e2, Outcome.bind_ok])
  have hFT := hFsh.trans hp.1
  have leafF : ∀ i c, LeafAt m.vertices i c → ∃ B, LeafAt F i B := fun i c hi => (hFT i).2 ⟨c, hi⟩
  have hx : RawFluxes lin m.vertices N 0 (F.map Prod.fst) fun i => (G i).1 :=
    rawFluxes (b := b) hm hpx hgxx hgyx ((sameShape_map F _).trans hFT) (fun i c hi => by
      obtain ⟨B, hB, rfl⟩ := leafAt_map.1 hi
      exact (hFl i B hB).2.1) fun i c hi => by
        obtain ⟨B, hB⟩ := leafF i c hi
        exact (hFl i B hB).2.2.1
  have hy : RawFluxes lin m.vertices N 1 (F.map Prod.snd) fun i => (G i).2 :=
    rawFluxes (b := b) hm hpy hgyy hgxy ((sameShape_map F _).trans hFT) (fun i c hi => by
      obtain ⟨B, hB, rfl⟩ := leafAt_map.1 hi
      exact (hFl i B hB).2.2.2.1) fun i c hi => by
        obtain ⟨B, hB⟩ := leafF i c hi
        exact (hFl i B hB).2.2.2.2
  obtain ⟨fx, fx', efx, hfx, hcx⟩ := correct_ok hs hm.shaped hx
  obtain ⟨fy, fy', efy, hfy, hcy⟩ := correct_ok hs hm.shaped hy
  refine ⟨p0, fx, fy, p, fx', fy', ?_, hp, hfx, hfy, hpc,
    ⟨px, px', gxx', gyx', _, _, hpx, fun hsafe i c hi x hx y hy => hgxx.zero hN (hgx0 (if_pos hsafe)) hi hx hy, fun i c hi => ?_, hx.shape, hcx⟩,
    ⟨py, py', gyy', gxy', _, _, hpy, fun hsafe i c hi x hx y hy => hgyy.zero hN (hgy0 (if_pos hsafe)) hi hx hy, fun i c hi => ?_, hy.shape, hcy⟩⟩
  rotate_left
  · obtain ⟨B, hB⟩ := leafF i c hi
    exact (hFl i B hB).2.2.1
  · obtain ⟨B, hB⟩ := leafF i c hi
    exact (hFl i B hB).2.2.2.2
  unfold stepFluxes
  dsimp only
  rw [ep, Outcome.bind_ok, epx, Outcome.bind_ok, epy, Outcome.bind_ok, egx, Outcome.bind_ok, egy, Outcome.bind_ok, egxx, Outcome.bind_ok, egxy,
    Outcome.bind_ok, egyx, Outcome.bind_ok, egyy, Outcome.bind_ok, hst.bodies, Outcome.bind_ok, eF, Outcome.bind_ok, efx, Outcome.bind_ok, efy,
    Outcome.bind_ok]

theorem stepFluxes_ok (hs : TotalShift sh) {lin : Bool} {m : SolverData} {D N : Nat} (hm : MeshData lin m D N) {s : Solution}
    {f : Index 2 → Nat → Nat → Tri} {b : State} (hst : StateData lin m N s f b) (fuel : Nat) (z : Fin 9 → Bool) (safe : Bool) :
    ∃ (p0 fx fy : Quad Tri) (p gx gy : Index 2 → Nat → Nat → Tri), stepFluxes sh (fuel + 1) z lin m s safe = .ok (p0, b, fx, fy) ∧
      Blocks m.vertices p0 N N p ∧ Fluxes lin m.vertices N 0 fx gx ∧ Fluxes lin m.vertices N 1 fy gy := by
  obtain ⟨p0, fx, fy, p, gx, gy, h1, h2, h3, h4, _⟩ := stepFluxes_cells hs hm hst fuel z safe
  exact ⟨p0, fx, fy, p, gx, gy, h1, h2, h3, h4⟩

end Verif.Binary
