import Verif.Model.BinaryDouble
import Verif.Props.QuadtreeDouble
import Verif.Lemmas.BinarySetup

/-!
# C122: cells of the binary program have an area and the time step is positive, in double precision
-/

namespace Verif.Nd
open Verif Verif.Binary

/-- Differences along an axis. -/
theorem Along.differenceWith {K : Type} [Sub K] {a : Fin 2} {A : Arr 2 K} {m n : Nat} {f : Nat → Nat → K}
    (h : Along a A (m + 1) n f) (hm : m + 1 < 2 ^ 64) (hn : n < 2 ^ 64) :
    ∃ D, Nd.difference a A = .ok D ∧ Along a D m n (fun x y => f (x + 1) y - f x y) := by
  have hb := along_shape_lt (a := a) hm hn
  have hA := along_denotes.mp h
  obtain ⟨U, h1, d1⟩ := dropFirst_denotes hA hb a 1 0 (by rw [if_pos rfl]; omega)
  obtain ⟨L, h2, d2⟩ := dropFinal_denotes hA hb a 1 (by rw [if_pos rfl]; omega)
  obtain ⟨D, h3, d3⟩ := binaryOp_denotes d1 d2 (· - ·)
  refine ⟨D, ?_, Along.of_denotes d3 (by rw [Function.update_self, if_pos rfl]; omega)
    (by rw [Function.update_of_ne (other_ne a), if_neg (other_ne a)]) fun i _ _ => ?_⟩
  · unfold Nd.difference
    rw [h1, Outcome.bind_ok, h2, Outcome.bind_ok, h3]
  · rw [Function.update_self, Function.update_of_ne (other_ne a)]

end Verif.Nd

namespace Verif.Binary
open Verif Verif.Nd Verif.Tree Verif.Double

variable {R : Rounding} {sh : Nat → Outcome Nat}

theorem place_gap {n : Nat} (h1 : 1 ≤ n) {c l p c' l' p' D : Nat} (hl : l ≤ D) (hl' : l' ≤ D) (h : place n c l p < place n c' l' p') :
    place n c l p + 2 / (n * 2 ^ D) ≤ place n c' l' p' := by
  have hn : (0 : ℝ) < n := by exact_mod_cast h1
  have e : ∀ c l p : Nat, l ≤ D → place n c l p = -1 + 2 * (((c * n + p) * 2 ^ (D - l) : Nat) : ℝ) / (n * 2 ^ D) := by
    intro c l p hl
    obtain ⟨m, rfl⟩ := Nat.exists_eq_add_of_le hl
    rw [place_eq h1, Nat.add_sub_cancel_left, pow_add]
    push_cast
    field_simp
  rw [e c l p hl, e c' l' p' hl'] at h ⊢
  generalize (c * n + p) * 2 ^ (D - l) = k at h ⊢
  generalize (c' * n + p') * 2 ^ (D - l') = k' at h ⊢
  have hp : (0 : ℝ) < n * 2 ^ D := by positivity
  rw [add_lt_add_iff_left, div_lt_div_iff_of_pos_right hp] at h
  have hk : k + 1 ≤ k' := by
    have : (k : ℝ) < k' := by linarith
    exact_mod_cast this
  have hk' : (k : ℝ) + 1 ≤ k' := by exact_mod_cast hk
  rw [add_assoc, add_le_add_iff_left, ← add_div, div_le_div_iff_of_pos_right hp]
  linarith

/-- Powers of two bound rounded numbers as they bound the numbers. -/
theorem rnd_ge {e : ℤ} (he : -1074 ≤ e) {x : ℝ} (h : 2 ^ e ≤ x) : 2 ^ e ≤ R.rnd x := by
  have := R.mono h
  rwa [R.rnd_double ⟨1, e, by norm_num, he, by simp⟩] at this

/-- A number between `-1` and `1` times the radius of the domain. -/
theorem scale_error {rd : Dbl R} (hr : 2 ^ (-300 : ℤ) ≤ rd.val) (a : Dbl R) (ha : |a.val| ≤ 1) :
    |(a * rd).val - rd.val * a.val| ≤ rd.val * (1 / 2 ^ 53) := by
  have hp : 0 < rd.val := lt_of_lt_of_le (by positivity) hr
  show |R.rnd (a.val * rd.val) - _| ≤ _
  rw [mul_comm rd.val a.val]
  rcases R.error (a.val * rd.val) with h | h
  · refine h.trans ?_
    rw [abs_mul, abs_of_pos hp, div_eq_mul_one_div]
    gcongr
    nlinarith
  · refine h.2.trans ?_
    have e1 : (2 : ℝ) ^ (-1075 : ℤ) ≤ 2 ^ (-300 : ℤ) * 2 ^ (-53 : ℤ) := by
      rw [← zpow_add₀ two_ne_zero]; exact zpow_le_zpow_right₀ one_le_two (by norm_num)
    have e2 : (2 : ℝ) ^ (-53 : ℤ) = 1 / 2 ^ 53 := by rw [zpow_neg, one_div]; norm_cast
    rw [e2] at e1
    exact e1.trans (by gcongr)

/-- How far apart, at least, vertices are that are in different places. -/
theorem Placed.gap {rd : ℝ} {n D : Nat} (h1 : 1 ≤ n) (hr : 0 < rd) (hD : D ≤ 30) (h46 : n * 2 ^ D ≤ 2 ^ 46) {V : Index 2 → Prop} {a : Fin 2} {e : Nat} (he : e ≤ 3)
    {v : Index 2 → Nat → Dbl R} (hV : ∀ i, V i → i.level ≤ D)
    (hv : ∀ i p, V i → p ≤ n → |(v i p).val - rd * place n (i.coords a) i.level p| ≤ rd * ((i.level + e) / 2 ^ 52))
    {i j : Index 2} {p q : Nat} (hi : V i) (hj : V j) (hp : p ≤ n) (hq : q ≤ n)
    (h : place n (i.coords a) i.level p < place n (j.coords a) j.level q) : rd / 2 ^ 47 ≤ (v j q).val - (v i p).val := by
  have g := place_gap h1 (hV i hi) (hV j hj) h
  have h46' : (n : ℝ) * 2 ^ D ≤ 2 ^ 46 := by exact_mod_cast h46
  have hpos : (0 : ℝ) < n * 2 ^ D := by have : (0 : ℝ) < n := by exact_mod_cast h1
                                        positivity
  have g' : (2 : ℝ) / 2 ^ 46 ≤ 2 / (n * 2 ^ D) := by gcongr
  have bound : ∀ i, V i → rd * (((i.level : ℝ) + e) / 2 ^ 52) ≤ rd * (33 / 2 ^ 52) := by
    intro i hi
    have : (i.level : ℝ) ≤ 30 := by exact_mod_cast (hV i hi).trans hD
    have : (e : ℝ) ≤ 3 := by exact_mod_cast he
    gcongr
    linarith
  have a1 := (hv i p hi hp).trans (bound i hi)
  have a2 := (hv j q hj hq).trans (bound j hj)
  have g2 : rd * (place n (i.coords a) i.level p + 2 / 2 ^ 46) ≤ rd * place n (j.coords a) j.level q := by gcongr; linarith
  rw [abs_le] at a1 a2
  have : rd * (place n (i.coords a) i.level p + 2 / 2 ^ 46) = rd * place n (i.coords a) i.level p + 128 * (rd / 2 ^ 52) := by ring
  rw [this] at g2
  have e3 : rd * (33 / 2 ^ 52) = 33 * (rd / 2 ^ 52) := by ring
  have e4 : rd / 2 ^ 47 = 32 * (rd / 2 ^ 52) := by ring
  have : 0 < rd / 2 ^ 52 := by positivity
  rw [e3] at a1 a2
  rw [e4]
  linarith [a1.2, a2.1]

/-- Multiplying the mesh with the radius of the domain keeps the vertices in their places. -/
theorem placed_scale {n D : Nat} (h1 : 1 ≤ n) (hD : D ≤ 30) {V : Index 2 → Prop} {a : Fin 2} (hV : ∀ i, V i → i.level ≤ D)
    {v : Index 2 → Nat → Dbl R} (hv : Placed 1 2 n D V a v) {rd : Dbl R} (hr : 2 ^ (-300 : ℤ) ≤ rd.val) :
    Placed rd.val 3 n D V a fun i p => v i p * rd := by
  have hpos : 0 < rd.val := lt_of_lt_of_le (by positivity) hr
  have hval : ∀ i p, (v i p * rd).val = R.rnd ((v i p).val * rd.val) := fun _ _ => rfl
  have hnear : ∀ i p, V i → p ≤ n → |(v i p * rd).val - rd.val * place n (i.coords a) i.level p| ≤ rd.val * ((i.level + (3 : Nat)) / 2 ^ 52) := by
    intro i p hi hp
    have a1 := scale_error hr (v i p) (hv.inside i p hi hp)
    have a2 := hv.near i p hi hp
    rw [one_mul, one_mul] at a2
    have a3 : |rd.val * (v i p).val - rd.val * place n (i.coords a) i.level p| ≤ rd.val * (((i.level : ℝ) + (2 : Nat)) / 2 ^ 52) := by
      rw [← mul_sub, abs_mul, abs_of_pos hpos]
      gcongr
    refine (abs_sub_le _ (rd.val * (v i p).val) _).trans ((add_le_add a1 a3).trans ?_)
    rw [← mul_add]
    gcongr
    push_cast
    linarith [show ((i.level : ℝ) + 3) / 2 ^ 52 = ((i.level : ℝ) + 2) / 2 ^ 52 + 2 * (1 / 2 ^ 53) by ring, show (0 : ℝ) < 1 / 2 ^ 53 by positivity]
  have hord : ∀ i j p q, v i p ≤ v j q → v i p * rd ≤ v j q * rd := fun i j p q h =>
    R.mono (mul_le_mul_of_nonneg_right h hpos.le)
  have hneg : IsDouble (-rd.val) := by
    obtain ⟨m, e, h1, h2, h3⟩ := rd.isDouble
    exact ⟨-m, e, by rwa [abs_neg], h2, by rw [h3]; push_cast; ring⟩
  refine ⟨hnear, fun i p hi hp => ?_, fun i p hi hp h => ?_, fun i p hi hp h => ?_, fun i j p q hi hj hp hq h => ?_,
    fun i j p q hi hj hp hq h => hord i j p q (hv.ordered i j p q hi hj hp hq h), fun h46 i j p q hi hj hp hq => ⟨fun h => ?_, fun h => ?_⟩⟩
  · have b := abs_le.1 (hv.inside i p hi hp)
    rw [hval, abs_le]
    constructor
    · rw [← R.rnd_double hneg]
      exact R.mono (by nlinarith)
    · refine (R.mono (b := rd.val) (by nlinarith)).trans (le_of_eq (R.rnd_double rd.isDouble))
  · rw [hval, hv.first i p hi hp h, neg_one_mul, R.rnd_double hneg]
  · rw [hval, hv.last i p hi hp h, one_mul, R.rnd_double rd.isDouble]
  · show v i p * rd = v j q * rd
    rw [hv.same i j p q hi hj hp hq h]
  · by_contra hcon
    exact absurd (hord j i q p (hv.ordered j i q p hj hi hq hp (not_lt.1 hcon))) (not_le.2 h)
  · have := Placed.gap h1 hpos hD h46 (e := 3) le_rfl hV (v := fun i p => v i p * rd) hnear hi hj hp hq h
    rw [lt_def]
    have : 0 < rd.val / 2 ^ 47 := by positivity
    linarith

theorem half_self (d : Dbl R) : (d + d) * Dbl.half = d := midD_self d

/-- The areas of the cells of a block. -/
theorem areas_double {N : Nat} {B : Arr 2 (Dbl R × Dbl R)} (hN : 1 ≤ N) (hb : (N + 2) * (N + 2) < 2 ^ 31) {x y : Nat → Dbl R}
    (h : Grid B (N + 1) (N + 1) fun p q => (x p, y q)) :
    ∃ X, blockAreasDouble B = .ok X ∧ Grid X N N fun p q => (x (p + 1) - x p) * (y (q + 1) - y q) := by
  obtain ⟨h1, h2⟩ := grid_small hb
  have h3 : N < 2 ^ 64 := by omega
  obtain ⟨D0, e0, k0⟩ := Along.differenceWith (a := 0) (h.map Prod.fst) h1 h1
  obtain ⟨D1, e1, k1⟩ := Along.midpointWith (a := 0) Dbl.half k0 h3 h1
  obtain ⟨D2, e2, k2⟩ := Along.differenceWith (a := 1) (f := fun p q => y p) (h.map Prod.snd) h1 h1
  obtain ⟨D3, e3, k3⟩ := Along.midpointWith (a := 1) Dbl.half k2 h3 h1
  simp only [half_self] at k1 k3
  obtain ⟨D4, e4, k4⟩ := Grid.binaryOp (f := fun p _ => x (p + 1) - x p) (g := fun _ q => y (q + 1) - y q) k1 k3 (· * ·)
  obtain ⟨D5, e5, k5⟩ := k4.evaluate hN hN h2
  refine ⟨D5, ?_, k5⟩
  unfold blockAreasDouble
  rw [show Nd.difference 0 (B.map Prod.fst) = .ok D0 from e0, Outcome.bind_ok, show Nd.midpoint Dbl.half 1 D0 = .ok D1 from e1, Outcome.bind_ok,
    show Nd.difference 1 (B.map Prod.snd) = .ok D2 from e2, Outcome.bind_ok, show Nd.midpoint Dbl.half 0 D2 = .ok D3 from e3, Outcome.bind_ok, e4, Outcome.bind_ok, e5]

/-- The smallest step of the vertices of a block is one of the steps. -/
theorem step_double {N : Nat} {B : Arr 2 (Dbl R × Dbl R)} (hN : 1 ≤ N) (hb : (N + 2) * (N + 2) < 2 ^ 31) {x y : Nat → Dbl R}
    (h : Grid B (N + 1) (N + 1) fun p q => (x p, y q)) (a : Fin 2) :
    ∃ v, blockStepDouble a B = .ok v ∧ ∃ p < N, v = if a = 0 then x (p + 1) - x p else y (p + 1) - y p := by
  obtain ⟨h1, _⟩ := grid_small hb
  have h3 : N < 2 ^ 64 := by omega
  fin_cases a
  · obtain ⟨D0, e0, k0⟩ := Along.differenceWith (a := 0) (h.map fun p => p.1) h1 h1
    obtain ⟨v, ev, ⟨p, hp, q, _, hv⟩, _⟩ := Grid.minBy (A := D0) (f := fun p _ => x (p + 1) - x p) k0 hN (by omega) h3 h1 0
    refine ⟨v, ?_, p, hp, ?_⟩
    · show (Nd.difference 0 (B.map fun p => p.1)).bind _ = _
      rw [show Nd.difference 0 (B.map fun p => p.1) = .ok D0 from e0, Outcome.bind_ok]
      convert ev
    · rw [hv]
      rfl
  · obtain ⟨D0, e0, k0⟩ := Along.differenceWith (a := 1) (f := fun p _ => y p) (h.map fun p => p.2) h1 h1
    obtain ⟨v, ev, ⟨p, _, q, hq, hv⟩, _⟩ := Grid.minBy (A := D0) (f := fun _ q => y (q + 1) - y q) k0 (by omega) hN h1 h3 0
    refine ⟨v, ?_, q, hq, ?_⟩
    · show (Nd.difference 1 (B.map fun p => p.2)).bind _ = _
      rw [show Nd.difference 1 (B.map fun p => p.2) = .ok D0 from e0, Outcome.bind_ok]
      convert ev
    · rw [hv]
      rfl

/-- Meshes of the binary program are not finer than `2 ^ 46` zones on an axis. -/
theorem zones_le {N depth : Nat} (hb : (N + 2) * (N + 2) < 2 ^ 31) (h30 : depth ≤ 30) : N * 2 ^ depth ≤ 2 ^ 46 := by
  have h1 : N ≤ 2 ^ 16 := by
    by_contra h
    have : 2 ^ 16 * 2 ^ 16 ≤ (N + 2) * (N + 2) := Nat.mul_le_mul (by omega) (by omega)
    norm_num at this hb
    omega
  calc N * 2 ^ depth ≤ 2 ^ 16 * 2 ^ 30 := Nat.mul_le_mul h1 (Nat.pow_le_pow_right two_pos h30)
    _ = 2 ^ 46 := by norm_num

/-- The vertices of the mesh of the binary program. -/
theorem vertices_double (hs : Shift sh) (sqrt : Dbl R → Dbl R) (pred : Nat → Dbl R → Bool) (N depth : Nat) (hN : 1 ≤ N)
    (hb : (N + 2) * (N + 2) < 2 ^ 31) (h30 : depth ≤ 30) (rd : Dbl R) (hr : 2 ^ (-300 : ℤ) ≤ rd.val) :
    ∃ (n : Nat) (V : Quad (Dbl R × Dbl R)) (x y : Index 2 → Nat → Dbl R),
      (∀ fuel, n ≤ fuel → createVerticesDouble sh sqrt pred fuel N depth rd = .ok V) ∧ Balanced V ∧ (∀ i, (∃ b, LeafAt V i b) → i.level ≤ depth) ∧
      Blocks V V (N + 1) (N + 1) (fun i p q => (x i p, y i q)) ∧
      Placed rd.val 3 N depth (fun i => ∃ b, LeafAt V i b) 0 x ∧ Placed rd.val 3 N depth (fun i => ∃ b, LeafAt V i b) 1 y ∧
      (∀ (z : Index 2 → Nat → Dbl R) (a : Fin 2), Placed rd.val 3 N depth (fun i => ∃ b, LeafAt V i b) a z → ∀ i B, LeafAt V i B → ∀ p < N,
        (2 : ℝ) ^ (-347 : ℤ) ≤ (z i (p + 1) - z i p).val) := by
  have h46 := zones_le hb h30
  have hb1 : (N + 1) * (N + 1) < 2 ^ 31 := lt_of_le_of_lt (Nat.mul_le_mul (by omega) (by omega)) hb
  have hpos : 0 < rd.val := lt_of_lt_of_le (zpow_pos two_pos _) hr
  obtain ⟨n, r, x, y, h1, h2, h3, h4, h5, h6⟩ := double_mesh hs sqrt pred N N depth hN hN hb1 h30
  have hVr : ∀ i, (∃ b, LeafAt r i b) → i.level ≤ depth := fun i ⟨b, hb⟩ => h3 i b hb
  have hBr : Blocks r r (N + 1) (N + 1) (fun i p q => (x i p, y i q)) := ⟨fun _ => Iff.rfl, fun i B hB => grid_iff.2 (h4 i B hB)⟩
  obtain ⟨V, eV, hV⟩ := hBr.mapM (F := fun B => evaluate (B.map fun p => (p.1 * rd, p.2 * rd))) (k := N + 1) (l := N + 1)
    (g := fun i p q => (x i p * rd, y i q * rd)) fun i B _ hB => (hB.map fun p => (p.1 * rd, p.2 * rd)).evaluate (by omega) (by omega) hb1
  have hleaf : (fun i => ∃ b, LeafAt r i b) = fun i => ∃ b, LeafAt V i b := funext fun i => propext (hV.1 i).symm
  have hx := placed_scale hN h30 hVr h5 hr
  have hy := placed_scale hN h30 hVr h6 hr
  rw [hleaf] at hx hy
  have hVr : ∀ i, (∃ b, LeafAt V i b) → i.level ≤ depth := fun i h => hVr i ((hV.1 i).1 h)
  have hVV : Blocks V V (N + 1) (N + 1) (fun i p q => (x i p * rd, y i q * rd)) := ⟨fun _ => Iff.rfl, hV.2⟩
  have hgap : (2 : ℝ) ^ (-347 : ℤ) ≤ rd.val / 2 ^ 47 := by
    rw [le_div_iff₀ (by positivity)]
    calc (2 : ℝ) ^ (-347 : ℤ) * 2 ^ 47 = 2 ^ (-300 : ℤ) := by
          rw [← zpow_natCast (2 : ℝ) 47, ← zpow_add₀ two_ne_zero]; norm_num
      _ ≤ _ := hr
  have hstep : ∀ (z : Index 2 → Nat → Dbl R) (a : Fin 2), Placed rd.val 3 N depth (fun i => ∃ b, LeafAt V i b) a z → ∀ i B, LeafAt V i B → ∀ p < N,
      (2 : ℝ) ^ (-347 : ℤ) ≤ (z i (p + 1) - z i p).val := by
    intro z a hz i B hi p hp
    have := Placed.gap hN hpos h30 h46 le_rfl hVr hz.near (i := i) (j := i) (p := p) (q := p + 1) ⟨B, hi⟩ ⟨B, hi⟩ (by omega) (by omega)
      (place_step hN _ _ _)
    exact rnd_ge (by norm_num) (hgap.trans this)
  exact ⟨n, V, _, _, fun fuel hf => by unfold createVerticesDouble; rw [h1 fuel hf, Outcome.bind_ok, eV],
    h2.sameShape hV.1, hVr, hVV, hx, hy, hstep⟩

/-- **C122**: in double precision, whatever the rule of refinement, the binary program makes a mesh of which the vertices are in their places; all the areas of cells that the program divides by are positive, and so is the time step. -/
theorem binary_double (hs : Shift sh) (sqrt : Dbl R → Dbl R) (pred : Nat → Dbl R → Bool) (N depth : Nat) (hN : 1 ≤ N)
    (hb : (N + 2) * (N + 2) < 2 ^ 31) (h30 : depth ≤ 30) (rd : Dbl R) (hr : 2 ^ (-300 : ℤ) ≤ rd.val)
    (v cfl : Dbl R) (hv0 : 0 < v.val) (hv : v.val ≤ 2 ^ 300) (hcfl : 2 ^ (-300 : ℤ) ≤ cfl.val) :
    ∃ (n : Nat) (V : Quad (Dbl R × Dbl R)) (A : Quad (Dbl R)) (dt : Dbl R) (x y : Index 2 → Nat → Dbl R) (area : Index 2 → Nat → Nat → Dbl R),
      (∀ fuel, n ≤ fuel → createVerticesDouble sh sqrt pred fuel N depth rd = .ok V) ∧ Balanced V ∧
      Blocks V V (N + 1) (N + 1) (fun i p q => (x i p, y i q)) ∧
      Placed rd.val 3 N depth (fun i => ∃ b, LeafAt V i b) 0 x ∧ Placed rd.val 3 N depth (fun i => ∃ b, LeafAt V i b) 1 y ∧
      Tree.mapM blockAreasDouble V = .ok A ∧ Blocks V A N N area ∧ (∀ i b p q, LeafAt A i b → p < N → q < N → 0 < area i p q) ∧
      recommendedStepDouble v cfl V = .ok dt ∧ 0 < dt := by
  obtain ⟨n, V, x, y, h1, h2, _, hVV, hx, hy, hstep⟩ := vertices_double hs sqrt pred N depth hN hb h30 rd hr
  obtain ⟨A, eA, hA⟩ := hVV.mapM (F := blockAreasDouble) fun i B _ hB => areas_double hN hb hB
  obtain ⟨dx, edx, sdx, hdx⟩ := hVV.mapV (F := blockStepDouble 0) (P := fun _ v => (2 : ℝ) ^ (-347 : ℤ) ≤ v.val) fun i B hi hB => by
    obtain ⟨v, ev, p, hp, rfl⟩ := step_double hN hb hB 0
    exact ⟨_, ev, hstep _ 0 hx i B hi p hp⟩
  obtain ⟨dy, edy, sdy, hdy⟩ := hVV.mapV (F := blockStepDouble 1) (P := fun _ v => (2 : ℝ) ^ (-347 : ℤ) ≤ v.val) fun i B hi hB => by
    obtain ⟨v, ev, p, hp, rfl⟩ := step_double hN hb hB 1
    exact ⟨_, ev, hstep _ 1 hy i B hi p hp⟩
  have hmem : ∀ {t : Verif.Tree.Tree 2 (Dbl R)}, (∀ i v, LeafAt t i v → (2 : ℝ) ^ (-347 : ℤ) ≤ v.val) → (2 : ℝ) ^ (-347 : ℤ) ≤ t.min.val := by
    intro t ht
    obtain ⟨g1, _⟩ := tree_min_max t
    rw [sink_eq_leaves] at g1
    obtain ⟨i, hi⟩ := mem_leaves_leafAt g1
    exact ht i _ hi
  have hm : (2 : ℝ) ^ (-347 : ℤ) ≤ (min dx.min dy.min).val := by
    rcases min_choice dx.min dy.min with h | h <;> rw [h]
    · exact hmem hdx
    · exact hmem hdy
  refine ⟨n, V, A, min dx.min dy.min / v * cfl, _, _, _, h1, h2, hVV, hx, hy, eA, hA, fun i b p q hi hp hq => ?_, ?_, ?_⟩
  · obtain ⟨B, hB⟩ := (hA.1 i).1 ⟨b, hi⟩
    have a1 := hstep _ 0 hx i B hB p hp
    have a2 := hstep _ 1 hy i B hB q hq
    rw [lt_def]
    refine lt_of_lt_of_le (zpow_pos two_pos (-694 : ℤ)) (rnd_ge (by norm_num) ?_)
    rw [show (-694 : ℤ) = -347 + -347 by norm_num, zpow_add₀ two_ne_zero]
    exact mul_le_mul a1 a2 (zpow_pos two_pos _).le (le_trans (zpow_pos two_pos _).le a1)
  · unfold recommendedStepDouble
    rw [edx, Outcome.bind_ok, edy, Outcome.bind_ok]
  · rw [lt_def]
    have b1 : (2 : ℝ) ^ (-647 : ℤ) ≤ (min dx.min dy.min / v).val := by
      refine rnd_ge (by norm_num) ?_
      rw [le_div_iff₀ hv0]
      calc (2 : ℝ) ^ (-647 : ℤ) * v.val ≤ 2 ^ (-647 : ℤ) * 2 ^ 300 := by gcongr
        _ = 2 ^ (-347 : ℤ) := by rw [← zpow_natCast (2 : ℝ) 300, ← zpow_add₀ two_ne_zero]; norm_num
        _ ≤ _ := hm
    refine lt_of_lt_of_le (zpow_pos two_pos (-947 : ℤ)) (rnd_ge (by norm_num) ?_)
    rw [show (-947 : ℤ) = -647 + -300 by norm_num, zpow_add₀ two_ne_zero]
    exact mul_le_mul b1 hcfl (zpow_pos two_pos _).le (le_trans (zpow_pos two_pos _).le b1)

/-- The options that the program takes when none are given: blocks of 24 times 24 zones at five levels, a domain from -24 to 24. -/
noncomputable def exRadius : Dbl Rounding.up := ⟨(24 : Nat), isDouble_nat (by norm_num)⟩

example : ∃ (n : Nat) (V : Quad (Dbl Rounding.up × Dbl Rounding.up)) (A : Quad (Dbl Rounding.up)) (dt : Dbl Rounding.up) (area : Index 2 → Nat → Nat → Dbl Rounding.up),
    (∀ fuel, n ≤ fuel → createVerticesDouble shl1 id (fun l ρ => decide (l = 0 ∨ ρ < Dbl.one)) fuel 24 4 exRadius = .ok V) ∧
    Tree.mapM blockAreasDouble V = .ok A ∧ Blocks V A 24 24 area ∧ (∀ i b p q, LeafAt A i b → p < 24 → q < 24 → 0 < area i p q) ∧
    recommendedStepDouble Dbl.one Dbl.half V = .ok dt ∧ 0 < dt := by
  have e : (2 : ℝ) ^ (-300 : ℤ) ≤ 2 ^ (-1 : ℤ) := zpow_le_zpow_right₀ one_le_two (by norm_num)
  have e' : (2 : ℝ) ^ (-1 : ℤ) = 1 / 2 := by norm_num
  rw [e'] at e
  obtain ⟨n, V, A, dt, x, y, area, h1, _, _, _, _, h2, h3, h4, h5, h6⟩ := binary_double (R := Rounding.up) shl1_shift id
    (fun l ρ => decide (l = 0 ∨ ρ < Dbl.one)) 24 4 (by norm_num) (by norm_num) (by norm_num) exRadius
    (e.trans (by show (1 / 2 : ℝ) ≤ ((24 : Nat) : ℝ); norm_num)) Dbl.one Dbl.half (by show (0 : ℝ) < 1; norm_num)
    (one_le_pow₀ one_le_two) e
  exact ⟨n, V, A, dt, area, h1, h2, h3, h4, h5, h6⟩

end Verif.Binary
