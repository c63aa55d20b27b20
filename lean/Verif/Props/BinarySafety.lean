import Verif.Props.BinaryStep

/-!
# C68: no step of the binary program returns a negative density

The hypotheses of the theorems are met by the initial state of a run with the default values (or with `conserve_linear_p=0`): `step_exists` and the
example after it in `Verif/Props/BinarySetup.lean`.
-/

namespace Verif.Tree

open Verif

variable {R : Nat} {α β : Type}

theorem mapM_inv {f : α → Outcome β} {t : Tree R α} {u : Tree R β} (h : t.mapM f = .ok u) {i : Index R} {b : β} (hi : LeafAt u i b) :
    ∃ a, f a = .ok b ∧ LeafAt t i a := by
  induction t generalizing u i with
  | leaf a =>
    obtain ⟨b', hb, rfl⟩ := Outcome.map_eq_ok.1 h
    obtain ⟨rfl, rfl⟩ := leafAt_leaf.1 hi
    exact ⟨a, hb, .here _⟩
  | node c ih =>
    obtain ⟨d, hd, rfl⟩ := Outcome.map_eq_ok.1 h
    obtain ⟨k, j, rfl, hj⟩ := leafAt_node.1 hi
    obtain ⟨a, ha, hl⟩ := ih k (sequence_ok.1 hd k) hj
    exact ⟨a, ha, leafAt_node.2 ⟨k, j, rfl, hl⟩⟩

theorem mapM_sameShape {f : α → Outcome β} {t : Tree R α} {u : Tree R β} (h : t.mapM f = .ok u) : SameShape u t := by
  intro i
  refine ⟨fun ⟨b, hb⟩ => ?_, fun ⟨a, ha⟩ => ?_⟩
  · obtain ⟨a, _, ha⟩ := mapM_inv h hb
    exact ⟨a, ha⟩
  · induction t generalizing u i with
    | leaf a' =>
      obtain ⟨b', hb, rfl⟩ := Outcome.map_eq_ok.1 h
      obtain ⟨rfl, rfl⟩ := leafAt_leaf.1 ha
      exact ⟨b', .here _⟩
    | node c ih =>
      obtain ⟨d, hd, rfl⟩ := Outcome.map_eq_ok.1 h
      obtain ⟨k, j, rfl, hj⟩ := leafAt_node.1 ha
      obtain ⟨b, hb⟩ := ih k (sequence_ok.1 hd k) j ⟨a, hj⟩ hj
      exact ⟨b, leafAt_node.2 ⟨k, j, rfl, hb⟩⟩

theorem leafAt_mem_leaves {t : Tree R α} {i : Index R} {a : α} (h : LeafAt t i a) : a ∈ leaves t := by
  induction t generalizing i with
  | leaf b =>
    obtain ⟨_, rfl⟩ := leafAt_leaf.1 h
    exact List.mem_singleton.2 rfl
  | node c ih =>
    obtain ⟨k, j, rfl, hj⟩ := leafAt_node.1 h
    exact List.mem_flatMap.2 ⟨k, List.mem_finRange k, ih k hj⟩

theorem mapM_indexes_inv {γ : Type} {f : Index R → Outcome β} {t : Tree R γ} {D : Nat} (hD : DepthLe t D) (h64 : D < 64) {u : Tree R β}
    (h : Tree.mapM f (t.indexes ⟨0, fun _ => 0⟩) = .ok u) : SameShape u t ∧ ∀ i b, LeafAt u i b → f i = .ok b := by
  have hroot : (⟨0, fun _ => 0⟩ : Index R) = Index.root := rfl
  rw [hroot] at h
  have hv : (Index.root : Index R).Valid := fun a => by simp [Index.root]
  have hli := leafAt_indexes t Index.root hv D hD (by simpa [Index.root] using h64)
  refine ⟨(mapM_sameShape h).trans fun i => ⟨fun ⟨v, hv⟩ => ((hli i v).1 hv).1, fun ha => ⟨_, (hli i _).2 ⟨ha, rfl⟩⟩⟩, fun i b hb => ?_⟩
  obtain ⟨v, hf, hv'⟩ := mapM_inv h hb
  obtain ⟨_, rfl⟩ := (hli i v).1 hv'
  have : Index.root.within i = i := Index.ext (by simp [Index.within, Index.root]) (by funext a; simp [Index.within, Index.root])
  rwa [this] at hf

theorem pair_inv {t : Tree R α} {u : Tree R β} {r : Tree R (α × β)} (h : t.pair u = .ok r) :
    SameShape t u ∧ SameShape r t ∧ ∀ i p, LeafAt r i p → LeafAt t i p.1 ∧ LeafAt u i p.2 := by
  by_cases hs : SameShape t u
  · obtain ⟨r', e, h1, h2⟩ := pair_ok hs
    rw [e] at h
    cases h
    exact ⟨hs, h1, h2⟩
  · obtain ⟨e, he⟩ := (binaryOp_code Prod.mk t u).2 hs
    unfold Tree.pair at h
    rw [he] at h
    cases h

end Verif.Tree

namespace Verif.Nd

variable {R : Nat} {α β γ : Type}

theorem binaryOp_shape {f : α → β → γ} {A : Arr R α} {B : Arr R β} {C : Arr R γ} (h : binaryOp f A B = .ok C) : C.shape = A.shape := by
  unfold binaryOp at h
  split at h
  · cases h
  · cases h
    rfl

theorem evaluate_inv [Inhabited α] {A B : Arr (R + 1) α} (h : evaluate A = .ok B) (hc : count A.shape < 2 ^ 31) :
    B.shape = A.shape ∧ ∀ i, InShape A.shape i → ∃ v, B.get i = .ok v := by
  unfold evaluate at h
  split at h
  · cases h
  · obtain ⟨l, _, h⟩ := Outcome.bind_eq_ok.1 h
    obtain ⟨buf, _, h⟩ := Outcome.bind_eq_ok.1 h
    have hs : B.shape = A.shape := by
      unfold ofBuffer at h
      split at h
      · cases h
      · cases h
        rfl
    refine ⟨hs, fun i hi => ?_⟩
    obtain ⟨v, hv, _⟩ := buffer_large_enough_partial _ _ _ hc h i hi
    exact ⟨v, hv⟩

theorem grid_of_gets {A : Arr 2 α} {m n : Nat} (h0 : A.shape = ![m, n]) [Inhabited α] (h : ∀ i, InShape ![m, n] i → ∃ v, A.get i = .ok v) :
    ∃ f, Grid A m n f := by
  classical
  refine ⟨fun x y => if hv : ∃ v, A.get ![x, y] = .ok v then hv.choose else default, by rw [h0]; rfl, by rw [h0]; rfl, fun x hx y hy => ?_⟩
  have hv := h ![x, y] (by
    intro a
    fin_cases a
    · exact hx
    · exact hy)
  dsimp only
  rw [dif_pos hv]
  exact hv.choose_spec

end Verif.Nd

namespace Verif.Binary

open Verif Verif.Nd Verif.Tree Iso2d Geometry TwoBody

variable {sh : Nat → Outcome Nat}

theorem grid_shape {α : Type} {A : Arr 2 α} {m n : Nat} {f : Nat → Nat → α} (h : Grid A m n f) : A.shape = ![m, n] := (grid_iff.1 h).1

theorem blockUpdate_shape (hs : TotalShift sh) {lin : Bool} {m : SolverData} {D N : Nat} (hT : Shaped m.vertices D N) {s : Solution}
    {f : Index 2 → Nat → Nat → Tri} (hf : Blocks m.vertices (cons lin s) N N f) {b : State} {p0 fx fy : Quad Tri} {dt : ℝ} {i : Index 2}
    {B : Arr 2 Tri × Totals} (h : blockUpdate sh lin m s b p0 fx fy dt i = .ok B) {c : Arr 2 (ℝ × ℝ)} (hi : LeafAt m.vertices i c) :
    ∃ g, Grid B.1 N N g := by
  have hlev : i.level ≤ 31 := by have := hT.depth i c hi; have := hT.small; omega
  have hNN : N * N < 2 ^ 31 := hT.of_le (by omega) (by omega)
  obtain ⟨u0, hu0, eu0⟩ := at_ok hs.1 hf.1 hi hlev
  unfold blockUpdate at h
  obtain ⟨_, _, h⟩ := Outcome.bind_eq_ok.1 h
  obtain ⟨v, hv, h⟩ := Outcome.bind_eq_ok.1 h
  rw [eu0] at hv
  cases hv
  obtain ⟨_, _, h⟩ := Outcome.bind_eq_ok.1 h
  obtain ⟨_, _, h⟩ := Outcome.bind_eq_ok.1 h
  obtain ⟨_, _, h⟩ := Outcome.bind_eq_ok.1 h
  obtain ⟨_, _, h⟩ := Outcome.bind_eq_ok.1 h
  obtain ⟨_, _, h⟩ := Outcome.bind_eq_ok.1 h
  obtain ⟨_, _, h⟩ := Outcome.bind_eq_ok.1 h
  obtain ⟨_, _, h⟩ := Outcome.bind_eq_ok.1 h
  obtain ⟨U, hU, h⟩ := Outcome.bind_eq_ok.1 h
  obtain ⟨V, hV, h⟩ := Outcome.bind_eq_ok.1 h
  obtain ⟨E, hE, h⟩ := Outcome.bind_eq_ok.1 h
  cases h
  have hsh : V.shape = ![N, N] := by rw [binaryOp_shape hV, binaryOp_shape hU, grid_shape (hf.2 i u0 hu0)]
  obtain ⟨h1, h2⟩ := evaluate_inv hE (by rw [hsh, count_pair]; exact hNN)
  rw [hsh] at h1 h2
  exact grid_of_gets h1 h2

theorem recoverPrimitive_shape {lin : Bool} {m : SolverData} {s : Solution} {p0 : Quad Tri} (h : recoverPrimitive lin m s = .ok p0) :
    SameShape p0 (cons lin s) := by
  unfold recoverPrimitive at h
  cases lin with
  | true => exact mapM_sameShape (by rwa [if_pos rfl] at h)
  | false =>
    rw [if_neg (by decide)] at h
    obtain ⟨r, hr, h⟩ := Outcome.bind_eq_ok.1 h
    exact (mapM_sameShape h).trans (pair_inv hr).2.1

theorem stepFluxes_shape {fuel : Nat} {z : Fin 9 → Bool} {lin : Bool} {m : SolverData} {s : Solution} {safe : Bool}
    {r : Quad Tri × State × Quad Tri × Quad Tri} (h : stepFluxes sh fuel z lin m s safe = .ok r) : SameShape r.1 (cons lin s) := by
  unfold stepFluxes at h
  obtain ⟨p0, hp, h⟩ := Outcome.bind_eq_ok.1 h
  iterate 12 obtain ⟨_, _, h⟩ := Outcome.bind_eq_ok.1 h
  cases h
  exact recoverPrimitive_shape hp

/-- The result of a step is a tree of blocks like the one it starts from. -/
theorem stepCore_shape (hs : TotalShift sh) {lin : Bool} {m : SolverData} {D N : Nat} (hT : Shaped m.vertices D N) {s : Solution}
    {f : Index 2 → Nat → Nat → Tri} (hf : Blocks m.vertices (cons lin s) N N f) {fuel : Nat} {z : Fin 9 → Bool} {dt : ℝ} {safe : Bool}
    {r : Quad Tri × Totals × State} (h : stepCore sh fuel z lin m s dt safe = .ok r) : ∃ g, Blocks m.vertices r.1 N N g := by
  classical
  unfold stepCore at h
  obtain ⟨p, hp, h⟩ := Outcome.bind_eq_ok.1 h
  obtain ⟨u, hu, h⟩ := Outcome.bind_eq_ok.1 h
  cases h
  have hp0 := (stepFluxes_shape hp).trans hf.1
  obtain ⟨hsh, hl⟩ := mapM_indexes_inv (hT.depth.sameShape hp0) (by have := hT.small; omega) hu
  have hsh := hsh.trans hp0
  have hex : ∀ i, ∃ g, ∀ B, LeafAt (u.map Prod.fst) i B → Grid B N N g := by
    intro i
    by_cases hi : ∃ B, LeafAt u i B
    · obtain ⟨B, hB⟩ := hi
      obtain ⟨c, hc⟩ := (hsh i).1 ⟨B, hB⟩
      obtain ⟨g, hg⟩ := blockUpdate_shape hs hT hf (hl i B hB) hc
      refine ⟨g, fun B' hB' => ?_⟩
      obtain ⟨B'', h1, rfl⟩ := leafAt_map.1 hB'
      rw [leaf_unique h1 hB]
      exact hg
    · refine ⟨fun _ _ => default, fun B' hB' => ?_⟩
      obtain ⟨B'', h1, rfl⟩ := leafAt_map.1 hB'
      exact absurd ⟨B'', h1⟩ hi
  choose g hg using hex
  exact ⟨g, (sameShape_map u _).trans hsh, hg⟩

theorem anyNegative_inv (hs : TotalShift sh) {m : SolverData} {D N : Nat} (hT : Shaped m.vertices D N) {t : Quad Tri}
    {g : Index 2 → Nat → Nat → Tri} (hg : Blocks m.vertices t N N g) {i : Index 2} {c : Arr 2 (ℝ × ℝ)} (hi : LeafAt m.vertices i c)
    (h : anyNegative sh m t i = .ok false) : ∀ x, x < N → ∀ y, y < N → 0 ≤ (g i x y).a := by
  have hlev : i.level ≤ 31 := by have := hT.depth i c hi; have := hT.small; omega
  have hN := hT.pos
  have hlt := hT.lt
  obtain ⟨U, hU, eU⟩ := at_ok hs.1 hg.1 hi hlev
  have hU := hg.2 i U hU
  unfold anyNegative at h
  obtain ⟨X, _, h⟩ := Outcome.bind_eq_ok.1 h
  rw [eU, Outcome.bind_ok] at h
  obtain ⟨Z, hZ, h⟩ := Outcome.bind_eq_ok.1 h
  obtain ⟨l, hl, h⟩ := Outcome.map_eq_ok.1 h
  have hXU : X.shape = U.shape := by
    unfold binaryOp at hZ
    split at hZ
    · cases hZ
    · rename_i hne
      exact not_not.1 hne
  have hZs : Z.shape = ![N, N] := by rw [binaryOp_shape hZ, hXU, grid_shape hU]
  have hZg : ∀ j p, Z.get j = .ok p → U.get j = .ok p.2 := by
    intro j p hp
    unfold binaryOp at hZ
    rw [if_neg (not_not.2 hXU)] at hZ
    cases hZ
    obtain ⟨_, _, hp⟩ := Outcome.bind_eq_ok.1 hp
    obtain ⟨v, hv, hp⟩ := Outcome.bind_eq_ok.1 hp
    cases hp
    exact hv
  unfold elements at hl
  obtain ⟨L, hL, hmem⟩ := indexes_shape (s := Z.shape) (Or.inl (by
    intro a
    rw [hZs]
    fin_cases a <;> exact hN)) (by
    intro a
    rw [hZs]
    fin_cases a <;> (show N < 2 ^ 64; omega))
  rw [hL, Outcome.bind_ok] at hl
  intro x hx y hy
  have hin : ![x, y] ∈ L := (hmem _).2 (by
    rw [hZs]
    intro a
    fin_cases a
    · exact hx
    · exact hy)
  have key : ∀ (L : List (Ix 2)) l, readAll Z L = .ok l → ∀ j ∈ L, ∃ p ∈ l, Z.get j = .ok p := by
    intro L
    induction L with
    | nil => intro l _ j hj; cases hj
    | cons k L ih =>
      intro l hl j hj
      unfold readAll at hl
      obtain ⟨v, hv, hl⟩ := Outcome.bind_eq_ok.1 hl
      obtain ⟨vs, hvs, hl⟩ := Outcome.bind_eq_ok.1 hl
      cases hl
      rcases List.mem_cons.1 hj with rfl | hj
      · exact ⟨v, List.mem_cons_self, hv⟩
      · obtain ⟨p, hp, h⟩ := ih vs hvs j hj
        exact ⟨p, List.mem_cons_of_mem _ hp, h⟩
  obtain ⟨p, hp, hget⟩ := key L l hl _ hin
  have h1 := hZg _ _ hget
  rw [hU.2.2 x hx y hy] at h1
  have h1 := Outcome.ok.inj h1
  by_contra hneg
  have : (l.any fun p => decide (p.2.a < 0)) = true := List.any_eq_true.2 ⟨p, hp, decide_eq_true (by rw [← h1]; exact not_le.1 hneg)⟩
  rw [this] at h
  cases h

theorem validate_nonneg (hs : TotalShift sh) {lin : Bool} {m : SolverData} {D N : Nat} (hT : Shaped m.vertices D N) {s s1 : Solution}
    {g : Index 2 → Nat → Nat → Tri} (hg : Blocks m.vertices (cons lin s) N N g) (h : validate sh lin m s = .ok s1) :
    ∀ i c, LeafAt m.vertices i c → ∀ x, x < N → ∀ y, y < N → 0 ≤ (g i x y).a := by
  intro i c hi
  unfold validate at h
  obtain ⟨F, hF, h⟩ := Outcome.bind_eq_ok.1 h
  obtain ⟨hsh, hl⟩ := mapM_indexes_inv (hT.depth.sameShape hg.1) (by have := hT.small; omega) hF
  obtain ⟨v, hv⟩ := ((hsh.trans hg.1) i).2 ⟨c, hi⟩
  split at h
  · cases h
  · rename_i hany
    have hvf : v = false := by
      by_contra hne
      refine hany (List.any_eq_true.2 ⟨v, ?_, by simpa using hne⟩)
      rw [sink_eq_leaves]
      exact leafAt_mem_leaves hv
    rw [hvf] at hv
    exact anyNegative_inv hs hT hg hi (hl i _ hv)

theorem advance_nonneg (hs : TotalShift sh) {m : SolverData} {D N : Nat} (hT : Shaped m.vertices D N) {s s1 : Solution}
    {f : Index 2 → Nat → Nat → Tri} (hf : Blocks m.vertices (cons m.conserveLinear s) N N f) {fuel : Nat} {z : Fin 9 → Bool} {dt : ℝ} {safe : Bool}
    (h : advance sh fuel z m s dt safe = .ok s1) : NonNegative m.vertices N (cons m.conserveLinear s1) := by
  obtain ⟨u1, t, b, eC, hcons, _, _, _, _, _, _, hval⟩ := advance_inv h
  obtain ⟨g, hg⟩ := stepCore_shape hs hT hf eC
  rw [← hcons] at hg
  exact ⟨g, hg, validate_nonneg hs hT hg hval⟩

theorem evaluate_grid {α : Type} [Inhabited α] {A B : Arr 2 α} {N : Nat} {f : Nat → Nat → α} (hN : 1 ≤ N) (hNN : N * N < 2 ^ 31) (hA : Grid A N N f)
    (h : evaluate A = .ok B) : Grid B N N f := by
  obtain ⟨B', e, hB⟩ := hA.evaluate hN hN hNN
  rw [e] at h
  cases h
  exact hB

theorem scaleTree_inv {β : Type} {T : Verif.Tree.Tree 2 β} {D N : Nat} (hT : Shaped T D N) {t t' : Quad Tri} {f : Index 2 → Nat → Nat → Tri}
    (hf : Blocks T t N N f) {k : ℝ} (h : scaleTree t k = .ok t') : Blocks T t' N N fun i x y => (f i x y).mul k := by
  refine ⟨(mapM_sameShape h).trans hf.1, fun i B hB => ?_⟩
  obtain ⟨A, hA, hl⟩ := mapM_inv h hB
  exact evaluate_grid hT.pos (hT.of_le (by omega) (by omega)) ((hf.2 i A hl).map _) hA

theorem addTrees_inv {β : Type} {T : Verif.Tree.Tree 2 β} {D N : Nat} (hT : Shaped T D N) {t u r : Quad Tri} {f g : Index 2 → Nat → Nat → Tri}
    (hf : Blocks T t N N f) (hg : Blocks T u N N g) (h : addTrees t u = .ok r) : Blocks T r N N fun i x y => (f i x y).add (g i x y) := by
  unfold addTrees at h
  obtain ⟨p, hp, h⟩ := Outcome.bind_eq_ok.1 h
  obtain ⟨_, h1, h2⟩ := pair_inv hp
  refine ⟨(mapM_sameShape h).trans (h1.trans hf.1), fun i B hB => ?_⟩
  obtain ⟨A, hA, hl⟩ := mapM_inv h hB
  obtain ⟨C, e, hC⟩ := (hf.2 i _ (h2 i A hl).1).binaryOp (hg.2 i _ (h2 i A hl).2) Tri.add
  rw [e, Outcome.bind_ok] at hA
  exact evaluate_grid hT.pos (hT.of_le (by omega) (by omega)) hC hA

theorem scale_cons {s s' : Solution} {k : ℚ} (h : s.scale k = .ok s') (lin : Bool) :
    scaleTree (cons lin s) k = .ok (cons lin s') ∧ s'.time = s.time * k ∧ s'.iteration = s.iteration * k := by
  unfold Solution.scale at h
  obtain ⟨u, hu, h⟩ := Outcome.bind_eq_ok.1 h
  obtain ⟨q, hq, h⟩ := Outcome.bind_eq_ok.1 h
  cases h
  cases lin
  · exact ⟨hq, rfl, rfl⟩
  · exact ⟨hu, rfl, rfl⟩

theorem add_cons {s r s' : Solution} (h : s.add r = .ok s') (lin : Bool) :
    addTrees (cons lin s) (cons lin r) = .ok (cons lin s') ∧ s'.time = s.time + r.time ∧ s'.iteration = s.iteration + r.iteration := by
  unfold Solution.add at h
  obtain ⟨u, hu, h⟩ := Outcome.bind_eq_ok.1 h
  obtain ⟨q, hq, h⟩ := Outcome.bind_eq_ok.1 h
  cases h
  cases lin
  · exact ⟨hq, rfl, rfl⟩
  · exact ⟨hu, rfl, rfl⟩

theorem advance_clock {fuel : Nat} {z : Fin 9 → Bool} {m : SolverData} {s s1 : Solution} {dt : ℝ} {safe : Bool}
    (h : advance sh fuel z m s dt safe = .ok s1) : s1.time = s.time + dt ∧ s1.iteration = s.iteration + 1 := by
  unfold advance advanceMode at h
  obtain ⟨r, _, h⟩ := Outcome.bind_eq_ok.1 h
  obtain ⟨E, _, h⟩ := Outcome.bind_eq_ok.1 h
  obtain ⟨d1, _, h⟩ := Outcome.bind_eq_ok.1 h
  obtain ⟨d2, _, h⟩ := Outcome.bind_eq_ok.1 h
  have he := validate_eq h
  rw [he]
  exact ⟨rfl, rfl⟩

theorem attempt_nonneg (hs : TotalShift sh) {m : SolverData} {D N : Nat} (hT : Shaped m.vertices D N) {s s1 : Solution}
    (hf : NonNegative m.vertices N (cons m.conserveLinear s)) {fuel : Nat} {z : Fin 9 → Bool} {dt : ℝ} {safe : Bool}
    (h : attempt sh fuel z m s dt safe = .ok s1) :
    NonNegative m.vertices N (cons m.conserveLinear s1) ∧ s1.time = s.time + dt ∧ s1.iteration = s.iteration + 1 := by
  obtain ⟨f, hf, hpos⟩ := hf
  unfold attempt at h
  split at h
  · exact ⟨advance_nonneg hs hT hf h, advance_clock h⟩
  split at h
  · obtain ⟨a, ha, h⟩ := Outcome.bind_eq_ok.1 h
    obtain ⟨b, hb, h⟩ := Outcome.bind_eq_ok.1 h
    obtain ⟨h0, eh0, h⟩ := Outcome.bind_eq_ok.1 h
    obtain ⟨h2, eh2, h⟩ := Outcome.bind_eq_ok.1 h
    obtain ⟨fa, hfa, _⟩ := advance_nonneg hs hT hf ha
    obtain ⟨fb, hfb, hposb⟩ := advance_nonneg hs hT hfa hb
    obtain ⟨ta, ia⟩ := advance_clock ha
    obtain ⟨tb, ib⟩ := advance_clock hb
    obtain ⟨e0, t0, i0⟩ := scale_cons eh0 m.conserveLinear
    obtain ⟨e2, t2, i2⟩ := scale_cons eh2 m.conserveLinear
    obtain ⟨e1, t1, i1⟩ := add_cons h m.conserveLinear
    refine ⟨⟨_, addTrees_inv hT (scaleTree_inv hT hf e0) (scaleTree_inv hT hfb e2) e1, fun i c hi x hx y hy => ?_⟩, ?_, ?_⟩
    · have h1 := hpos i c hi x hx y hy
      have h2 := hposb i c hi x hx y hy
      show 0 ≤ (f i x y).a * ((1 / 2 : ℚ) : ℝ) + (fb i x y).a * ((1 - 1 / 2 : ℚ) : ℝ)
      push_cast
      linarith
    · rw [t1, t0, t2, tb, ta]
      push_cast
      ring
    · rw [i1, i0, i2, ib, ia]
      ring
  · cases h

/-- **C68**: a step from a state without negative densities that succeeds gives a state without negative densities, at a later time.  If the first attempt
throws, the step is made once more from the same state, a tenth as long and in safe mode; and if that throws as well, so does the step. -/
theorem step_density_partial (hs : TotalShift sh) {m : SolverData} {D N : Nat} (hT : Shaped m.vertices D N) {s : Solution}
    (hf : NonNegative m.vertices N (cons m.conserveLinear s)) (fuel : Nat) (z : Fin 9 → Bool) :
    (∀ s1, nextSolution sh fuel z m s = .ok s1 → NonNegative m.vertices N (cons m.conserveLinear s1) ∧ s1.iteration = s.iteration + 1 ∧
      ∃ dt, (m.fixedDt = true → dt = m.recommendedStep) ∧ (m.fixedDt = false → ∃ d, maximumTimestep sh m s = .ok d ∧ dt = m.cfl * d) ∧
        ((attempt sh fuel z m s dt false = .ok s1 ∧ s1.time = s.time + dt) ∨
          (∃ e, attempt sh fuel z m s dt false = .throws e) ∧ attempt sh fuel z m s (dt / 10) true = .ok s1 ∧ s1.time = s.time + dt / 10)) ∧
    (∀ e e', m.fixedDt = true → attempt sh fuel z m s m.recommendedStep false = .throws e →
      attempt sh fuel z m s (m.recommendedStep / 10) true = .throws e' → nextSolution sh fuel z m s = .throws e') := by
  constructor
  · intro s1 h
    unfold nextSolution at h
    obtain ⟨dt, hdt, h⟩ := Outcome.bind_eq_ok.1 h
    have hd1 : m.fixedDt = true → dt = m.recommendedStep := by
      intro hfix
      rw [if_pos hfix] at hdt
      exact (Outcome.ok.inj hdt).symm
    have hd2 : m.fixedDt = false → ∃ d, maximumTimestep sh m s = .ok d ∧ dt = m.cfl * d := by
      intro hfix
      rw [if_neg (by rw [hfix]; decide)] at hdt
      obtain ⟨d, hd, h⟩ := Outcome.map_eq_ok.1 hdt
      exact ⟨d, hd, h.symm⟩
    cases ha : attempt sh fuel z m s dt false with
    | throws e =>
      rw [ha] at h
      dsimp only at h
      rw [show dt * (1 / 10) = dt / 10 by ring] at h
      obtain ⟨h1, h2, h3⟩ := attempt_nonneg hs hT hf h
      exact ⟨h1, h3, dt, hd1, hd2, Or.inr ⟨⟨e, ha⟩, h, h2⟩⟩
    | ok s2 =>
      rw [ha] at h
      dsimp only at h
      cases h
      obtain ⟨h1, h2, h3⟩ := attempt_nonneg hs hT hf ha
      exact ⟨h1, h3, dt, hd1, hd2, Or.inl ⟨ha, h2⟩⟩
    | ub =>
      rw [ha] at h
      cases h
    | diverges =>
      rw [ha] at h
      cases h
  · intro e e' hfix h1 h2
    unfold nextSolution
    rw [if_pos hfix, Outcome.bind_ok, h1]
    dsimp only
    rw [show m.recommendedStep * (1 / 10) = m.recommendedStep / 10 by ring, h2]

/-- **C68** for a run of any number of steps. -/
theorem run_density_partial (hs : TotalShift sh) {m : SolverData} {D N : Nat} (hT : Shaped m.vertices D N) (fuel : Nat) (z : Fin 9 → Bool)
    (s : Nat → Solution) (h0 : NonNegative m.vertices N (cons m.conserveLinear (s 0)))
    (n : Nat) (h : ∀ k, k < n → nextSolution sh fuel z m (s k) = .ok (s (k + 1))) :
    NonNegative m.vertices N (cons m.conserveLinear (s n)) ∧ (s n).iteration = (s 0).iteration + n := by
  induction n with
  | zero => exact ⟨h0, by simp⟩
  | succ n ih =>
    have ih := ih fun k hk => h k (by omega)
    obtain ⟨h1, h2, _⟩ := (step_density_partial hs hT ih.1 fuel z).1 _ (h n (by omega))
    refine ⟨h1, ?_⟩
    rw [h2, ih.2]
    push_cast
    ring

end Verif.Binary
