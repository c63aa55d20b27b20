import Verif.Lemmas.BinaryBudget
import Verif.Props.Iso2d
import Verif.Spec.BinaryReach

/-!
# Bounds on the flow of mass between the cells of the binary program in the safe mode
-/

namespace Verif.Binary

open Verif Verif.Nd Verif.Tree Iso2d Geometry TwoBody

variable {sh : Nat → Outcome Nat}

/-! ### One face -/

/-- Gas of positive density that moves along no axis faster than `V`. -/
def Slow (V : ℝ) (q : Tri) : Prop := 0 < q.a ∧ |q.b| ≤ V ∧ |q.c| ≤ V

theorem Slow.mono {V W : ℝ} {q : Tri} (h : Slow V q) (hVW : V ≤ W) : Slow W q := ⟨h.1, h.2.1.trans hVW, h.2.2.trans hVW⟩

theorem core_mass {sl sr vl vr ap am : ℝ} (hl : 0 ≤ sl) (hr : 0 ≤ sr) (h0 : 0 ≤ ap) (h1 : am ≤ 0) (h : am < ap) (hvl : vl ≤ ap) (hvr : vr ≤ ap)
    (hwl : am ≤ vl) (hwr : am ≤ vr) : Hlle.core (vl * sl) (vr * sr) sl sr ap am ≤ sl * ap ∧ sr * am ≤ Hlle.core (vl * sl) (vr * sr) sl sr ap am := by
  have hd : 0 < ap - am := by linarith
  unfold Hlle.core
  constructor
  · rw [div_le_iff₀ hd]
    have e1 : 0 ≤ sl * ap * (ap - vl) := mul_nonneg (mul_nonneg hl h0) (by linarith)
    have e2 : 0 ≤ sr * (-am) * (ap - vr) := mul_nonneg (mul_nonneg hr (by linarith)) (by linarith)
    linarith
  · rw [le_div_iff₀ hd]
    have e1 : 0 ≤ sl * ap * (vl - am) := mul_nonneg (mul_nonneg hl h0) (by linarith)
    have e2 : 0 ≤ sr * (-am) * (vr - am) := mul_nonneg (mul_nonneg hr (by linarith)) (by linarith)
    linarith

/-- The flow of mass through a face is at most what the gas on one side carries at the largest speed of signals. -/
theorem hlle_mass {Pl Pr : Tri} {n : UnitVec ℝ} {c V : ℝ} (hc : 0 < c) (hl : 0 ≤ Pl.a) (hr : 0 ≤ Pr.a) (hvl : |velocityAlong Pl n| ≤ V)
    (hvr : |velocityAlong Pr n| ≤ V) :
    (hlle Pl Pr c c n).a ≤ Pl.a * (V + Real.sqrt c) ∧ -(Pr.a * (V + Real.sqrt c)) ≤ (hlle Pl Pr c c n).a := by
  have hs := Real.sqrt_pos.2 hc
  have hlt := speeds_lt Pl Pr n c hc
  rw [hlle_eq]
  dsimp only
  have e1 : (wavespeeds Pl n c).1 = velocityAlong Pl n - Real.sqrt c := rfl
  have e2 : (wavespeeds Pl n c).2 = velocityAlong Pl n + Real.sqrt c := rfl
  have e3 : (wavespeeds Pr n c).1 = velocityAlong Pr n - Real.sqrt c := rfl
  have e4 : (wavespeeds Pr n c).2 = velocityAlong Pr n + Real.sqrt c := rfl
  rw [e1, e2, e3, e4] at hlt
  rw [e1, e2, e3, e4]
  clear e1 e2 e3 e4
  have hV : 0 ≤ V := (abs_nonneg _).trans hvl
  show Hlle.core (velocityAlong Pl n * Pl.a) (velocityAlong Pr n * Pr.a) Pl.a Pr.a _ _ ≤ _ ∧
    _ ≤ Hlle.core (velocityAlong Pl n * Pl.a) (velocityAlong Pr n * Pr.a) Pl.a Pr.a _ _
  generalize velocityAlong Pl n = vl at *
  generalize velocityAlong Pr n = vr at *
  generalize Real.sqrt c = k at *
  have a1 := abs_le.1 hvl
  have a2 := abs_le.1 hvr
  have hap : max 0 (max (vl + k) (vr + k)) ≤ V + k := max_le (by linarith) (max_le (by linarith) (by linarith))
  have ham : -(V + k) ≤ min 0 (min (vl - k) (vr - k)) := le_min (by linarith) (le_min (by linarith) (by linarith))
  obtain ⟨h1, h2⟩ := core_mass (sl := Pl.a) (sr := Pr.a) (vl := vl) (vr := vr) hl hr (le_max_left _ _) (min_le_left _ _) hlt
    (by have : vl + k ≤ _ := (le_max_left _ (vr + k)).trans (le_max_right 0 _); linarith)
    (by have : vr + k ≤ _ := (le_max_right (vl + k) _).trans (le_max_right 0 _); linarith)
    (by have : _ ≤ vl - k := (min_le_right 0 _).trans (min_le_left _ (vr - k)); linarith)
    (by have : _ ≤ vr - k := (min_le_right 0 _).trans (min_le_right (vl - k) _); linarith)
  refine ⟨h1.trans (mul_le_mul_of_nonneg_left hap hl), le_trans ?_ h2⟩
  rw [← mul_neg]
  exact mul_le_mul_of_nonneg_left ham hr

theorem viscous_mass {a : Fin 2} {g t : Tri × Tri} {mu : ℝ} {w : Tri} (h : viscousFlux (a : Nat) g t mu = .ok w) : w.a = 0 := by
  obtain rfl | rfl : a = 0 ∨ a = 1 := by fin_cases a <;> simp
  · have h' := Outcome.ok.inj h
    rw [← h']
  · have h' := Outcome.ok.inj h
    rw [← h']

/-- Without derivatives, the flux of mass is that of the solution of the Riemann problem for the cells on the two sides. -/
theorem intercell_mass {lin : Bool} {s : Params} {b : TwoBody.State} {a : Fin 2} {h V c : ℝ} {x : ℝ × ℝ} {p t : Tri × Tri} {v : Tri}
    (hv : intercell lin s a b h x p (0, 0) t = .ok v) (hx : cs2At s b x = .ok c) (hc : 0 < c) (hl : Slow V p.1) (hr : Slow V p.2) :
    v.a ≤ p.1.a * (V + Real.sqrt c) ∧ -(p.2.a * (V + Real.sqrt c)) ≤ v.a := by
  have key : ∃ n : UnitVec ℝ, |velocityAlong p.1 n| ≤ V ∧ |velocityAlong p.2 n| ≤ V ∧ (UnitVec.onAxis (a : Nat) : Outcome (UnitVec ℝ)) = .ok n := by
    obtain rfl | rfl : a = 0 ∨ a = 1 := by fin_cases a <;> simp
    · refine ⟨⟨1, 0, 0⟩, ?_, ?_, rfl⟩
      · simpa [velocityAlong, UnitVec.project] using hl.2.1
      · simpa [velocityAlong, UnitVec.project] using hr.2.1
    · refine ⟨⟨0, 1, 0⟩, ?_, ?_, rfl⟩
      · simpa [velocityAlong, UnitVec.project] using hl.2.2
      · simpa [velocityAlong, UnitVec.project] using hr.2.2
  obtain ⟨n, n1, n2, en⟩ := key
  have hU : ∀ w, intercellFluxU s a b h x p (0, 0) t = .ok w → w.a = (hlle p.1 p.2 c c n).a := by
    intro w hw
    unfold intercellFluxU at hw
    dsimp only at hw
    rw [hx, Outcome.bind_ok] at hw
    obtain ⟨nu, _, hw⟩ := Outcome.bind_eq_ok.1 hw
    rw [en, Outcome.bind_ok, hlleChecked_ok _ _ hc, Outcome.bind_ok] at hw
    obtain ⟨w', ew, hw⟩ := Outcome.bind_eq_ok.1 hw
    obtain rfl := Outcome.ok.inj hw
    have e1 : p.1.add (((0 : Tri).mul (1 / 2)).mul h) = p.1 := by
      refine Tri.ext ?_ ?_ ?_
      · show p.1.a + 0 * (1 / 2) * h = _; ring
      · show p.1.b + 0 * (1 / 2) * h = _; ring
      · show p.1.c + 0 * (1 / 2) * h = _; ring
    have e2 : p.2.sub (((0 : Tri).mul (1 / 2)).mul h) = p.2 := by
      refine Tri.ext ?_ ?_ ?_
      · show p.2.a - 0 * (1 / 2) * h = _; ring
      · show p.2.b - 0 * (1 / 2) * h = _; ring
      · show p.2.c - 0 * (1 / 2) * h = _; ring
    rw [e1, e2]
    show (hlle p.1 p.2 c c n).a + w'.a = _
    rw [viscous_mass ew, add_zero]
  have hva : v.a = (hlle p.1 p.2 c c n).a := by
    unfold intercell at hv
    by_cases hlin : lin = true
    · rw [if_pos hlin] at hv
      exact hU v hv
    · rw [if_neg hlin] at hv
      unfold intercellFluxQ at hv
      obtain ⟨w, ew, rfl⟩ := Outcome.map_eq_ok.1 hv
      exact hU w ew
  rw [hva]
  exact hlle_mass hc hl.1.le hr.1.le n1 n2

/-! ### Guard cells -/

theorem cellSize_child (rd : ℝ) (N : Nat) (i : Index 2) (k : Nat) : cellSize rd N i = 2 * cellSize rd N (i.child k) := by
  unfold cellSize
  show _ = 2 * (2 * rd / N / 2 ^ (i.level + 1))
  rw [pow_succ]
  field_simp

theorem cellSize_level {rd : ℝ} {N : Nat} {i j : Index 2} (h : i.level = j.level) : cellSize rd N i = cellSize rd N j := by
  unfold cellSize
  rw [h]

theorem Slow.mean {V : ℝ} {v : Fin 4 → Tri} (h : ∀ n, Slow V (v n)) : Slow V ((v 0 + v 1 + v 2 + v 3).mul (1 / 4)) := by
  obtain ⟨a0, b0, c0⟩ := h 0
  obtain ⟨a1, b1, c1⟩ := h 1
  obtain ⟨a2, b2, c2⟩ := h 2
  obtain ⟨a3, b3, c3⟩ := h 3
  rw [abs_le] at b0 b1 b2 b3 c0 c1 c2 c3
  refine ⟨?_, abs_le.2 ?_, abs_le.2 ?_⟩
  · show 0 < ((v 0).a + (v 1).a + (v 2).a + (v 3).a) * (1 / 4)
    linarith
  · show -V ≤ ((v 0).b + (v 1).b + (v 2).b + (v 3).b) * (1 / 4) ∧ ((v 0).b + (v 1).b + (v 2).b + (v 3).b) * (1 / 4) ≤ V
    constructor <;> linarith
  · show -V ≤ ((v 0).c + (v 1).c + (v 2).c + (v 3).c) * (1 / 4) ∧ ((v 0).c + (v 1).c + (v 2).c + (v 3).c) * (1 / 4) ≤ V
    constructor <;> linarith

section
variable {β : Type} {T : Verif.Tree.Tree 2 β} {N : Nat} {rd K : ℝ}

theorem half_lt {N x : Nat} (hx : x < N) (P : Prop) [Decidable P] : (x + if P then N else 0) / 2 < N := by
  split <;> omega

theorem GuardAt.slow {f : Index 2 → Nat → Nat → Tri} {j : Index 2} {q : Nat → Nat → Tri} (h : GuardAt T N f j q) (hrd : 0 < rd) (hK : 0 ≤ K)
    (h0 : ∀ i c, LeafAt T i c → ∀ x, x < N → ∀ y, y < N → Slow (K * cellSize rd N i) (f i x y)) {x : Nat} (hx : x < N) {y : Nat} (hy : y < N) :
    Slow (2 * K * cellSize rd N j) (q x y) := by
  have hpos : 0 ≤ K * cellSize rd N j := mul_nonneg hK (cellSize_pos hrd (by omega) j).le
  rcases h with ⟨⟨c, hc⟩, h⟩ | ⟨m, d, k, hm, h1, h2⟩ | ⟨h1, h2⟩
  · rw [h]
    exact (h0 j c hc x hx y hy).mono (by linarith)
  · rw [h2]
    refine (h0 m d hm _ (half_lt hx _) _ (half_lt hy _)).mono (le_of_eq ?_)
    rw [h1, cellSize_child rd N m k]
    ring
  · obtain ⟨v, hv, e⟩ := h2 x hx y hy
    rw [e]
    refine Slow.mean fun n => ?_
    obtain ⟨k, x', y', hx', hy', e'⟩ := hv n
    obtain ⟨c, hc⟩ := h1 k
    rw [e']
    refine (h0 _ c hc x' hx' y' hy').mono ?_
    rw [cellSize_child rd N j k] at hpos ⊢
    linarith

theorem Extended.slow {a : Fin 2} {u : Quad Tri} {f g : Index 2 → Nat → Nat → Tri} (h : Extended T N a u f g) (hrd : 0 < rd) (hK : 0 ≤ K)
    (h0 : ∀ i c, LeafAt T i c → ∀ x, x < N → ∀ y, y < N → Slow (K * cellSize rd N i) (f i x y)) {i : Index 2} {c : β} (hi : LeafAt T i c) {x : Nat}
    (hx : x < N + 2) {y : Nat} (hy : y < N) : Slow (2 * K * cellSize rd N i) (g i x y) := by
  have ht : ∀ (q : Nat → Nat → Tri) V, (∀ x, x < N → ∀ y, y < N → Slow V (q x y)) → ∀ x, x < N → Slow V (turn a q x y) := by
    intro q V hq x hx
    obtain rfl | rfl : a = 0 ∨ a = 1 := by fin_cases a <;> simp
    · exact hq x hx y hy
    · exact hq y hy x hx
  rcases Nat.eq_zero_or_pos x with rfl | hx0
  · obtain ⟨j, q, _, hfol, hq, e⟩ := h.before i c hi
    rw [e y hy, ← cellSize_level hfol.1]
    exact ht q _ (fun x hx y hy => hq.slow hrd hK h0 hx hy) _ (by omega)
  · by_cases hxN : x = N + 1
    · subst hxN
      obtain ⟨j, q, _, hfol, hq, e⟩ := h.after i c hi
      rw [e y hy, cellSize_level hfol.1]
      exact ht q _ (fun x hx y hy => hq.slow hrd hK h0 hx hy) _ (by omega)
    · obtain ⟨k, rfl⟩ : ∃ k, x = k + 1 := ⟨x - 1, by omega⟩
      rw [h.inner i c hi k (by omega) y hy]
      have hpos : 0 ≤ K * cellSize rd N i := mul_nonneg hK (cellSize_pos hrd (by omega) i).le
      exact ht (f i) _ (fun x hx y hy => (h0 i c hi x hx y hy).mono (by linarith)) _ (by omega)

/-- The guard cell of a finer block is a copy of the cell behind it. -/
theorem GuardAt.coarse {f : Index 2 → Nat → Nat → Tri} {i : Index 2} {c : β} (hi : LeafAt T i c) (hl : i.level ≤ 30) {k : Nat} {q : Nat → Nat → Tri}
    (h : GuardAt T N f (i.child k) q) (x y : Nat) :
    q x y = f i ((x + if k.testBit 0 then N else 0) / 2) ((y + if k.testBit 1 then N else 0) / 2) := by
  have hbit : ∀ a : Fin 2, ((i.child k).coords a % 2 = 1) ↔ k.testBit a = true := by
    intro a
    show (2 * i.coords a + (k.testBit a).toNat) % 2 = 1 ↔ _
    cases k.testBit a
    · simp
    · simp
  rcases h with ⟨⟨d, hd⟩, _⟩ | ⟨m, d, l, hm, h1, h2⟩ | ⟨h1, _⟩
  · exact absurd hd (not_node_of_parent_leaf hi k)
  · have hml : m.level = i.level := by
      have := congrArg Index.level h1
      simp only [Index.child] at this
      omega
    have : m = i := by
      have h3 := congrArg Index.parentIndex h1
      rw [parent_child (by omega), parent_child (by omega)] at h3
      exact h3.symm
    subst this
    rw [h2]
    simp only [hbit]
    rfl
  · obtain ⟨d, hd⟩ := h1 0
    exact (leafAt_not_interior hi) (interior_of_leaf_inside hd (inside_trans (child_inside _ _) (child_inside _ _)) (fun e => by
      have := congrArg Index.level e
      simp only [Index.child] at this
      omega)) |>.elim

end

/-! ### The flow through the faces of a cell -/

/-- Of a face between two blocks of different size: the two halves lie in cells that are copies of the cell behind the face. -/
theorem GuardAt.half {β : Type} {T : Verif.Tree.Tree 2 β} {N : Nat} {f : Index 2 → Nat → Nat → Tri} {i : Index 2} {c : β} (hi : LeafAt T i c) (hl : i.level ≤ 30)
    {a : Fin 2} {s : Bool} {z : Nat} (hz : z < 2 * N) {q : Nat → Nat → Tri} (h : GuardAt T N f (i.child (corner a s (decide (N ≤ z)))) q) :
    turn a q (if s then N - 1 else 0) (if N ≤ z then z - N else z) = turn a (f i) (if s then N - 1 else 0) (z / 2) := by
  have key := h.coarse hi hl
  have b1 := corner_bit a s (decide (N ≤ z))
  have b2 := corner_other a s (decide (N ≤ z))
  generalize (corner a s (decide (N ≤ z)) : Nat) = k at *
  have e1 : ((if s then N - 1 else 0) + if s = true then N else 0) / 2 = if s then N - 1 else 0 := by
    cases s
    · simp
    · simp only [if_true]
      omega
  have e2 : ((if N ≤ z then z - N else z) + if decide (N ≤ z) = true then N else 0) / 2 = z / 2 := by
    by_cases hzN : N ≤ z
    · simp only [hzN, decide_true, if_true]
      congr 1
      omega
    · simp only [hzN, decide_false, if_false]
      rfl
  obtain rfl | rfl : a = 0 ∨ a = 1 := by fin_cases a <;> simp
  · have b1 : k.testBit 0 = s := b1
    have b2 : k.testBit 1 = decide (N ≤ z) := b2 1 (by decide)
    show q _ _ = f i _ _
    rw [key, b1, b2, e1, e2]
  · have b1 : k.testBit 1 = s := b1
    have b2 : k.testBit 0 = decide (N ≤ z) := b2 0 (by decide)
    show q _ _ = f i _ _
    rw [key, b1, b2, e1, e2]

theorem sideFluxes_eq {K : Type} (N : Nat) (a : Fin 2) (s : Bool) (f : Index 2 → Nat → K) (j : Index 2) (z : Nat) :
    sideFluxes N a s f j z = f (j.child (corner a s (decide (N ≤ z)))) (if N ≤ z then z - N else z) := by
  unfold sideFluxes
  by_cases hz : N ≤ z
  · rw [if_neg (by omega)]
    simp [hz]
  · rw [if_pos (by omega)]
    simp [hz]

/-- No face takes from a cell more than a fixed share of what it holds. -/
theorem Flow.mass {lin : Bool} {m : SolverData} {D N : Nat} (hm : MeshData lin m D N) {b : TwoBody.State} {a : Fin 2} {p g : Index 2 → Nat → Nat → Tri}
    (h : Flow lin m b N a True p g) {K : ℝ} (hK : 0 ≤ K)
    (h0 : ∀ i c, LeafAt m.vertices i c → ∀ x, x < N → ∀ y, y < N → Slow (K * cellSize m.params.domainRadius N i) (p i x y))
    (hface : ∀ i c, LeafAt m.vertices i c → ∀ x, x < N + 1 → ∀ y, y < N → ∃ c, cs2At m.params b (facePos m.params.domainRadius N a i x y) = .ok c ∧ 0 < c ∧
      Real.sqrt c ≤ 2 * K * cellSize m.params.domainRadius N i) {i : Index 2} {c : Arr 2 (ℝ × ℝ)} (hi : LeafAt m.vertices i c) {x : Nat} (hx : x < N) {y : Nat}
    (hy : y < N) :
    (g i (x + 1) y).a ≤ (turn a (p i) x y).a * (4 * K * cellSize m.params.domainRadius N i ^ 2) ∧
      -((turn a (p i) x y).a * (4 * K * cellSize m.params.domainRadius N i ^ 2)) ≤ (g i x y).a := by
  obtain ⟨pe, p', g', h', t, F, hE, hz, hF, hsh, hcor⟩ := h
  have hrd := hm.radius
  have hN := hm.shaped.pos
  have hi30 : i.level ≤ 30 := (hm.shaped.depth i c hi).trans hm.shaped.small
  have hb := hm.shaped.balanced.sameShape hsh
  have hraw : ∀ i c, LeafAt m.vertices i c → ∀ x, x < N + 1 → ∀ y, y < N →
      (F i x y).a ≤ (p' i x y).a * (4 * K * cellSize m.params.domainRadius N i ^ 2) ∧
        -((p' i (x + 1) y).a * (4 * K * cellSize m.params.domainRadius N i ^ 2)) ≤ (F i x y).a := by
    intro i c hi x hx y hy
    obtain ⟨v, ev, eF⟩ := hF i c hi x hx y hy
    obtain ⟨k, ek, hk, hkS⟩ := hface i c hi x hx y hy
    have s1 := hE.slow hrd hK h0 hi (show x < N + 2 by omega) hy
    have s2 := hE.slow hrd hK h0 hi (show x + 1 < N + 2 by omega) hy
    rw [hz trivial i c hi x (by omega) y hy, hz trivial i c hi (x + 1) (by omega) y hy] at ev
    obtain ⟨h1, h2⟩ := intercell_mass ev ek hk s1 s2
    have hpos := (cellSize_pos hrd hN i).le
    rw [eF]
    show v.a * _ ≤ _ ∧ _ ≤ v.a * _
    have p1 : 0 ≤ (p' i x y).a := s1.1.le
    have p2 : 0 ≤ (p' i (x + 1) y).a := s2.1.le
    dsimp only at h1 h2
    generalize cellSize m.params.domainRadius N i = w at *
    constructor
    · calc v.a * w ≤ (p' i x y).a * (2 * K * w + Real.sqrt k) * w := mul_le_mul_of_nonneg_right h1 hpos
        _ ≤ (p' i x y).a * (2 * K * w + 2 * K * w) * w := by gcongr
        _ = _ := by ring
    · have : (p' i (x + 1) y).a * (2 * K * w + Real.sqrt k) * w ≤ (p' i (x + 1) y).a * (2 * K * w + 2 * K * w) * w := by gcongr
      have := mul_le_mul_of_nonneg_right h2 hpos
      nlinarith
  obtain ⟨B, hB⟩ := (hsh i).2 ⟨c, hi⟩
  obtain ⟨c1, c2, c3⟩ := hcor i B hB
  have hpos := (cellSize_pos hrd hN i).le
  have hnn : 0 ≤ (turn a (p i) x y).a := by
    obtain rfl | rfl : a = 0 ∨ a = 1 := by fin_cases a <;> simp
    · exact (h0 i c hi x hx y hy).1.le
    · exact (h0 i c hi y hy x hx).1.le
  have hKw : 0 ≤ K * cellSize m.params.domainRadius N i ^ 2 := by positivity
  constructor
  · have hr := (hraw i c hi (x + 1) (by omega) y hy).1
    rw [hE.inner i c hi x hx y hy] at hr
    by_cases hxN : x + 1 < N
    · rw [c1 (x + 1) y (by omega) hxN hy]
      exact hr
    · obtain rfl : N = x + 1 := by omega
      obtain ⟨j, _, hj, hfol, _⟩ := hE.after i c hi
      obtain ⟨u1, u2, u3⟩ := c3 j hj hfol
      rcases neighbour_node hb hB hi30 (.inr ⟨hfol.neighbour hj, hj⟩) with ⟨d, hd⟩ | ⟨d, n, hd, hjn, _⟩ | ⟨d, hd⟩
      · rw [u1 d hd y hy]
        exact hr
      · rw [u2 _ d n hd hjn y hy]
        exact hr
      · rw [u3 d hd y hy]
        have hone : ∀ z, z / 2 = y → (sideFluxes (x + 1) a false (fun i => F i 0) j z).a ≤
            (turn a (p i) x y).a * (K * cellSize m.params.domainRadius (x + 1) i ^ 2) := by
          intro z hzy
          rw [sideFluxes_eq]
          generalize hk : corner a false (decide (x + 1 ≤ z)) = k
          have hleaf : LeafAt t (j.child k) (d k) := nodeAt_child hd k
          obtain ⟨c', hc'⟩ := (hsh _).1 ⟨_, hleaf⟩
          have hz' : (if x + 1 ≤ z then z - (x + 1) else z) < x + 1 := by split <;> omega
          have := (hraw _ c' hc' 0 (by omega) _ hz').1
          obtain ⟨j', q, hj', hfol', hq, e⟩ := hE.before _ c' hc'
          have hfol2 : Follows True a (i.child (corner a true (decide (x + 1 ≤ z)))) (j.child k) := by
            rw [← hk]
            exact hfol.child (corner_bit a true _) (corner_bit a false _) fun b hb => by rw [corner_other a true _ b hb, corner_other a false _ b hb]
          have hv2 : (i.child (corner a true (decide (x + 1 ≤ z)))).Valid := child_valid hi.valid _
          obtain rfl := Follows.unique_prev hj' hv2 hfol' hfol2
          have hh := hq.half hi hi30 (by omega : z < 2 * (x + 1))
          simp only [if_true, Nat.add_sub_cancel] at hh e
          rw [e _ hz', hh, hzy, cellSize_level hfol'.1.symm] at this
          rw [cellSize_child _ _ i (corner a true (decide (x + 1 ≤ z)))]
          refine this.trans (le_of_eq ?_)
          ring
        have o1 := hone (2 * y) (by omega)
        have o2 := hone (2 * y + 1) (by omega)
        have := mul_nonneg hnn hKw
        show (sideFluxes (x + 1) a false (fun i => F i 0) j (2 * y)).a + (sideFluxes (x + 1) a false (fun i => F i 0) j (2 * y + 1)).a ≤ _
        linarith
  · have hr := (hraw i c hi x (by omega) y hy).2
    rw [hE.inner i c hi x hx y hy] at hr
    by_cases hxN : 0 < x
    · rw [c1 x y hxN hx hy]
      exact hr
    · obtain rfl : x = 0 := by omega
      obtain ⟨j, _, hj, hfol, _⟩ := hE.before i c hi
      obtain ⟨u1, u2, u3⟩ := c2 j hj hfol
      have hnb : Neighbour i j := by
        obtain ⟨e1, b', e2, e3⟩ := hfol.neighbour hi.valid
        exact ⟨e1.symm, b', fun k hk => (e2 k hk).symm, by rw [← e1]; exact e3.symm⟩
      rcases neighbour_node hb hB hi30 (.inr ⟨hnb, hj⟩) with ⟨d, hd⟩ | ⟨d, n, hd, hjn, _⟩ | ⟨d, hd⟩
      · rw [u1 d hd y hy]
        exact hr
      · rw [u2 _ d n hd hjn y hy]
        exact hr
      · rw [u3 d hd y hy]
        have hone : ∀ z, z / 2 = y → -((turn a (p i) 0 y).a * (K * cellSize m.params.domainRadius N i ^ 2)) ≤
            (sideFluxes N a true (fun i => F i N) j z).a := by
          intro z hzy
          rw [sideFluxes_eq]
          generalize hk : corner a true (decide (N ≤ z)) = k
          have hleaf : LeafAt t (j.child k) (d k) := nodeAt_child hd k
          obtain ⟨c', hc'⟩ := (hsh _).1 ⟨_, hleaf⟩
          have hz' : (if N ≤ z then z - N else z) < N := by split <;> omega
          have := (hraw _ c' hc' N (by omega) _ hz').2
          obtain ⟨j', q, hj', hfol', hq, e⟩ := hE.after _ c' hc'
          have hfol2 : Follows True a (j.child k) (i.child (corner a false (decide (N ≤ z)))) := by
            rw [← hk]
            exact hfol.child (corner_bit a true _) (corner_bit a false _) fun b hb => by rw [corner_other a true _ b hb, corner_other a false _ b hb]
          have hv2 : (i.child (corner a false (decide (N ≤ z)))).Valid := child_valid hi.valid _
          obtain rfl := Follows.unique_next hc'.valid hj' hv2 hfol' hfol2
          have hh := hq.half hi hi30 (by omega : z < 2 * N)
          simp only [Bool.false_eq_true, if_false] at hh
          rw [e _ hz', hh, hzy, cellSize_level hfol'.1] at this
          rw [cellSize_child _ _ i (corner a false (decide (N ≤ z)))]
          refine (le_of_eq ?_).trans this
          ring
        have o1 := hone (2 * y) (by omega)
        have o2 := hone (2 * y + 1) (by omega)
        have := mul_nonneg hnn hKw
        show _ ≤ (sideFluxes N a true (fun i => F i N) j (2 * y)).a + (sideFluxes N a true (fun i => F i N) j (2 * y + 1)).a
        linarith

/-! ### The speed of sound on the faces of a cell -/

theorem sqrt_shift (u S d : ℝ) (hS : 0 ≤ S) : Real.sqrt (u ^ 2 + S) ≤ Real.sqrt ((u + d) ^ 2 + S) + |d| := by
  have h1 : |u + d| ≤ Real.sqrt ((u + d) ^ 2 + S) := Real.abs_le_sqrt (by linarith)
  have h0 : 0 ≤ Real.sqrt ((u + d) ^ 2 + S) := Real.sqrt_nonneg _
  refine Real.sqrt_le_left (by positivity) |>.2 ?_
  have h2 : Real.sqrt ((u + d) ^ 2 + S) ^ 2 = (u + d) ^ 2 + S := Real.sq_sqrt (by positivity)
  have h3 : -(|d| * |u + d|) ≤ d * (u + d) := by
    rw [← abs_mul]
    exact neg_abs_le _
  have h4 : |d| * |u + d| ≤ |d| * Real.sqrt ((u + d) ^ 2 + S) := mul_le_mul_of_nonneg_left h1 (abs_nonneg _)
  have h5 : |d| ^ 2 = d ^ 2 := sq_abs d
  nlinarith

/-- The points of a plane that one gets to along one of the axes. -/
def Aside (d : ℝ) (X F : ℝ × ℝ) : Prop := F = (X.1 + d, X.2) ∨ F = (X.1, X.2 + d)

theorem reach_aside {eps d w : ℝ} {B : TwoBody.PointMass} {X F : ℝ × ℝ} (h : Aside d X F) (hd : |d| ≤ w / 2) (hw : w ≤ 3 / 2 * reach eps B X) :
    reach eps B X / 4 ≤ reach eps B F := by
  have key : reach eps B X ≤ reach eps B F + |d| := by
    unfold reach
    rcases h with rfl | rfl
    · have := sqrt_shift (X.1 - B.x) ((X.2 - B.y) ^ 2 + eps ^ 2) d (by positivity)
      rw [← add_assoc, ← add_assoc] at this
      rw [show (X.1 + d, X.2).1 - B.x = X.1 - B.x + d from by dsimp only; ring]
      exact this
    · have := sqrt_shift (X.2 - B.y) ((X.1 - B.x) ^ 2 + eps ^ 2) d (by positivity)
      rw [← add_assoc, ← add_assoc, add_comm ((X.2 - B.y) ^ 2), add_comm ((X.2 - B.y + d) ^ 2)] at this
      rw [show (X.1, X.2 + d).2 - B.y = X.2 - B.y + d from by dsimp only; ring]
      exact this
  linarith

theorem reach_pos {eps : ℝ} (h : eps ≠ 0) (B : TwoBody.PointMass) (p : ℝ × ℝ) : 0 < reach eps B p := by
  unfold reach
  have := sq_pos_of_ne_zero h
  positivity

theorem gravPhi_reach {s : Params} (hs : s.softening ≠ 0) (B : TwoBody.PointMass) (p : ℝ × ℝ) :
    gravPhi s (position B) B.mass p = .ok (-(B.mass / reach s.softening B p)) := by
  have hpos : 0 < (p.1 - B.x) * (p.1 - B.x) + (p.2 - B.y) * (p.2 - B.y) + s.softening * s.softening := by
    have := mul_self_pos.2 hs
    have h1 := mul_self_nonneg (p.1 - B.x)
    have h2 := mul_self_nonneg (p.2 - B.y)
    linarith
  unfold gravPhi reach
  dsimp only [position]
  rw [if_neg hpos.ne', Real.sqrt_eq_rpow, ← sq, ← sq, ← sq]
  congr 1
  ring

/-- The speed of sound in the plane of a binary. -/
theorem cs2At_eq {s : Params} {b : TwoBody.State} (hP : Physical s b) (hax : s.axisymmetric = false) (p : ℝ × ℝ) :
    cs2At s b p = .ok ((b.body1.mass / reach s.softening b.body1 p + b.body2.mass / reach s.softening b.body2 p) / s.mach ^ 2) := by
  unfold cs2At
  rw [if_neg hP.mach, hax, if_neg (by decide), gravPhi_reach hP.softening, Outcome.bind_ok, gravPhi_reach hP.softening, Outcome.bind_ok]
  congr 1
  have := hP.mach
  field_simp
  ring

/-- A cell that is well resolved: it is not much larger than the softened distances from the bodies, or, around a single mass at the origin, than the distance
from it. -/
def Resolved (s : Params) (b : TwoBody.State) (w : ℝ) (X : ℝ × ℝ) : Prop :=
  if s.axisymmetric then w ≤ 3 / 2 * radius X else w ≤ 3 / 2 * reach s.softening b.body1 X ∧ w ≤ 3 / 2 * reach s.softening b.body2 X

theorem cs2At_aside {s : Params} {b : TwoBody.State} (hP : Physical s b) {w d c : ℝ} {X F : ℝ × ℝ} (hw : 0 < w) (hd : |d| ≤ w / 2) (hF : Aside d X F)
    (hR : Resolved s b w X) (hc : cs2At s b X = .ok c) : ∃ c', cs2At s b F = .ok c' ∧ 0 < c' ∧ c' ≤ 4 * c := by
  unfold Resolved at hR
  cases hax : s.axisymmetric with
  | true =>
    rw [hax, if_pos rfl] at hR
    have e0 : ∀ p : ℝ × ℝ, radius p = reach 0 ⟨0, 0, 0, 0, 0⟩ p := fun p => by
      unfold radius reach
      congr 1
      ring
    have h1 := reach_aside (B := ⟨0, 0, 0, 0, 0⟩) (eps := 0) hF hd (by rw [← e0]; exact hR)
    rw [← e0, ← e0] at h1
    have hX : 0 < radius X := by linarith
    have hFp : 0 < radius F := by linarith
    have eq : ∀ p, 0 < radius p → cs2At s b p = .ok (1 / radius p / s.mach / s.mach) := by
      intro p hp
      unfold cs2At
      rw [if_neg hP.mach, hax, if_pos rfl]
      dsimp only
      rw [if_neg (fun h0 => by unfold radius at hp; rw [h0, Real.sqrt_zero] at hp; exact lt_irrefl _ hp)]
      rfl
    rw [eq X hX] at hc
    obtain rfl := Outcome.ok.inj hc
    refine ⟨_, eq F hFp, ?_, ?_⟩
    · have := mul_self_pos.2 hP.mach
      rw [div_div]
      positivity
    · have h2 : 1 / radius F ≤ 4 * (1 / radius X) := by
        rw [mul_one_div, div_le_div_iff₀ hFp hX]
        linarith
      have hm := mul_self_pos.2 hP.mach
      have h3 := div_le_div_of_nonneg_right h2 hm.le
      rw [mul_div_assoc, ← div_div, ← div_div] at h3
      exact h3
  | false =>
    rw [hax, if_neg (by decide)] at hR
    obtain ⟨r1, r2⟩ := hR
    have h1 := reach_aside hF hd r1
    have h2 := reach_aside hF hd r2
    rw [cs2At_eq hP hax] at hc ⊢
    obtain rfl := Outcome.ok.inj hc
    have p1 := reach_pos hP.softening b.body1 X
    have p2 := reach_pos hP.softening b.body2 X
    have q1 := reach_pos hP.softening b.body1 F
    have q2 := reach_pos hP.softening b.body2 F
    have m1 := hP.mass1
    have m2 := hP.mass2
    have hm : 0 < s.mach ^ 2 := by have := hP.mach; positivity
    refine ⟨_, rfl, by positivity, ?_⟩
    have k1 : b.body1.mass / reach s.softening b.body1 F ≤ 4 * (b.body1.mass / reach s.softening b.body1 X) := by
      rw [← mul_div_assoc, div_le_div_iff₀ q1 p1]
      nlinarith
    have k2 : b.body2.mass / reach s.softening b.body2 F ≤ 4 * (b.body2.mass / reach s.softening b.body2 X) := by
      rw [← mul_div_assoc, div_le_div_iff₀ q2 p2]
      nlinarith
    rw [← mul_div_assoc]
    exact div_le_div_of_nonneg_right (by linarith) hm.le

/-- Each face of a block belongs to one of its cells. -/
theorem facePos_aside (rd : ℝ) {N : Nat} (a : Fin 2) (i : Index 2) {x : Nat} (hx : x < N + 1) {y : Nat} (hy : y < N) (hN : 1 ≤ N) :
    ∃ x' y' d, x' < N ∧ y' < N ∧ |d| = |cellSize rd N i| / 2 ∧ Aside d (cellCenter rd N i x' y') (facePos rd N a i x y) := by
  have ha : |cellSize rd N i / 2| = |cellSize rd N i| / 2 := by rw [abs_div, abs_two]
  obtain ⟨x', d, hx', hd, e⟩ : ∃ x' d, x' < N ∧ |d| = |cellSize rd N i| / 2 ∧ ∀ a, coordinate rd N i a x = coordinate rd N i a (x' + 1 / 2) + d := by
    by_cases h : x < N
    · refine ⟨x, -(cellSize rd N i / 2), h, by rw [abs_neg, ha], fun a => ?_⟩
      unfold coordinate
      ring
    · refine ⟨x - 1, cellSize rd N i / 2, by omega, ha, fun a => ?_⟩
      obtain ⟨k, rfl⟩ : ∃ k, x = k + 1 := ⟨x - 1, by omega⟩
      unfold coordinate
      rw [Nat.add_sub_cancel]
      push_cast
      ring
  obtain rfl | rfl : a = 0 ∨ a = 1 := by fin_cases a <;> simp
  · refine ⟨x', y, d, hx', hy, hd, .inl ?_⟩
    show (_, _) = (_, _)
    rw [e]
    rfl
  · refine ⟨y, x', d, hy, hx', hd, .inr ?_⟩
    show (_, _) = (_, _)
    rw [e]
    rfl

/-- Around a single mass at the origin all cells are resolved whose middle is not there. -/
theorem radius_resolved {rd : ℝ} (h : 0 < rd) {N : Nat} (hN : 1 ≤ N) {i : Index 2} (hoff : i.level ≠ 0 ∨ N % 2 = 0) (x y : Nat) :
    cellSize rd N i ≤ 3 / 2 * radius (cellCenter rd N i x y) := by
  have hw := cellSize_pos h hN i
  have hone : ∀ a (z : Nat), cellSize rd N i ^ 2 / 4 ≤ coordinate rd N i a (z + 1 / 2) * coordinate rd N i a (z + 1 / 2) := by
    intro a z
    rw [coordinate_eq hN]
    have hint : (2 * ((i.coords a : ℝ) * N + (z + 1 / 2)) - N * 2 ^ i.level) = ((2 * (i.coords a * N + z) + 1 - N * 2 ^ i.level : ℤ) : ℝ) := by
      push_cast
      ring
    have hodd : (2 * (i.coords a * N + z) + 1 - N * 2 ^ i.level : ℤ) ≠ 0 := by
      have heven : (2 : ℤ) ∣ N * 2 ^ i.level := by
        rcases hoff with h | h
        · exact Dvd.dvd.mul_left (dvd_pow_self 2 h) _
        · exact Dvd.dvd.mul_right (by omega) _
      omega
    rw [hint]
    generalize (2 * (i.coords a * N + z) + 1 - N * 2 ^ i.level : ℤ) = k at hodd
    have h1 : (1 : ℝ) ≤ (k : ℝ) ^ 2 := by
      have : 1 ≤ k ^ 2 := by
        have := sq_pos_of_ne_zero hodd
        omega
      exact_mod_cast this
    nlinarith [sq_nonneg (cellSize rd N i)]
  have h1 := hone 0 x
  have h2 := hone 1 y
  have : Real.sqrt (cellSize rd N i ^ 2 * (4 / 9)) ≤ radius (cellCenter rd N i x y) := by
    refine Real.sqrt_le_sqrt ?_
    show _ ≤ coordinate rd N i 0 (x + 1 / 2) * coordinate rd N i 0 (x + 1 / 2) + coordinate rd N i 1 (y + 1 / 2) * coordinate rd N i 1 (y + 1 / 2)
    nlinarith [sq_nonneg (cellSize rd N i)]
  rw [show cellSize rd N i ^ 2 * (4 / 9) = (cellSize rd N i * (2 / 3)) ^ 2 by ring, Real.sqrt_sq (by positivity)] at this
  linarith

end Verif.Binary
