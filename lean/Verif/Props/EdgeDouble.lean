import Verif.Props.BinaryDouble

/-!
# C125: in double precision the faces on the edge of the domain, and no others, are recognised
-/

namespace Verif.Binary
open Verif Verif.Nd Verif.Tree Verif.Double

variable {R : Rounding} {sh : Nat → Outcome Nat}

/-- The component on the axis `a` of a position. -/
def onAxis (a : Fin 2) (x : Dbl R × Dbl R) : Dbl R := if a = 0 then x.1 else x.2

/-- The faces with the number `p` on the axis `a` of the block `i`, of `N` zones, are on the edge of the domain. -/
def OnEdge (N : Nat) (a : Fin 2) (i : Index 2) (p : Nat) : Prop := (i.coords a = 0 ∧ p = 0) ∨ (i.coords a + 1 = 2 ^ i.level ∧ p = N)

theorem place_first {N : Nat} (hN : 1 ≤ N) {c l p : Nat} : place N c l p = -1 ↔ c = 0 ∧ p = 0 := by
  rw [place_eq hN]
  have hn : (0 : ℝ) < N * 2 ^ l := by have : (0 : ℝ) < N := by exact_mod_cast hN
                                      positivity
  rw [add_eq_left, div_eq_zero_iff, or_iff_left hn.ne', mul_eq_zero, or_iff_right two_ne_zero, Nat.cast_eq_zero]
  constructor
  · intro h
    have h1 : c * N = 0 := by omega
    rcases Nat.mul_eq_zero.1 h1 with h2 | h2 <;> omega
  · rintro ⟨rfl, rfl⟩; simp

theorem place_last {N : Nat} (hN : 1 ≤ N) {c l p : Nat} (hc : c < 2 ^ l) (hp : p ≤ N) : place N c l p = 1 ↔ c + 1 = 2 ^ l ∧ p = N := by
  rw [place_eq hN]
  have hn : (0 : ℝ) < N * 2 ^ l := by have : (0 : ℝ) < N := by exact_mod_cast hN
                                      positivity
  have e : -1 + 2 * ((c * N + p : Nat) : ℝ) / (N * 2 ^ l) = 1 ↔ c * N + p = N * 2 ^ l := by
    rw [← Nat.cast_inj (R := ℝ)]
    push_cast
    constructor
    · intro h
      field_simp at h
      linarith
    · intro h
      rw [h]
      field_simp
      norm_num
  rw [e]
  constructor
  · intro h
    have h1 : c + 1 = 2 ^ l := by
      by_contra hne
      have : (c + 2) * N ≤ 2 ^ l * N := Nat.mul_le_mul_right _ (by omega)
      rw [Nat.mul_comm (2 ^ l)] at this
      rw [Nat.add_mul] at this
      omega
    refine ⟨h1, ?_⟩
    rw [← h1, Nat.mul_add, Nat.mul_one, Nat.mul_comm N c] at h
    omega
  · rintro ⟨h, rfl⟩
    rw [← h]; ring

/-- A vertex of the mesh is at an end of the domain when it should be. -/
theorem edge_iff {N D : Nat} (hN : 1 ≤ N) (hD : D ≤ 30) (h46 : N * 2 ^ D ≤ 2 ^ 46) {rd : Dbl R} (hr : 0 < rd.val) {V : Index 2 → Prop} {a : Fin 2}
    {v : Index 2 → Nat → Dbl R} (hV : ∀ i, V i → i.Valid ∧ i.level ≤ D) (hv : Placed rd.val 3 N D V a v) {i : Index 2} {p : Nat} (hi : V i) (hp : p ≤ N) :
    (v i p = negDouble rd ∨ v i p = rd) ↔ OnEdge N a i p := by
  have hc := (hV i hi).1 a
  constructor
  · intro h
    -- the numbers of the bounds
    have hl : (i.level : ℝ) ≤ 30 := by exact_mod_cast (hV i hi).2.trans hD
    have near := hv.near i p hi hp
    have hb : rd.val * (((i.level : ℝ) + (3 : Nat)) / 2 ^ 52) ≤ rd.val * (33 / 2 ^ 52) := by push_cast; gcongr; linarith
    have near := near.trans hb
    have h46' : (N : ℝ) * 2 ^ i.level ≤ 2 ^ 46 := by
      exact_mod_cast (Nat.mul_le_mul_left N (Nat.pow_le_pow_right two_pos (hV i hi).2)).trans h46
    have hpos : (0 : ℝ) < N * 2 ^ i.level := by have : (0 : ℝ) < N := by exact_mod_cast hN
                                                positivity
    have hsp : (2 : ℝ) / 2 ^ 46 ≤ 2 / (N * 2 ^ i.level) := by gcongr
    rcases h with h | h
    · refine Or.inl ?_
      by_contra hne
      have hk : 1 ≤ i.coords a * N + p := by
        by_contra h0
        refine hne ((place_first hN (l := i.level)).1 ?_)
        rw [place_eq hN, show i.coords a * N + p = 0 by omega]; simp
      have hpl : -1 + 2 / 2 ^ 46 ≤ place N (i.coords a) i.level p := by
        rw [place_eq hN]
        have : (1 : ℝ) ≤ (i.coords a * N + p : Nat) := by exact_mod_cast hk
        have : 2 / ((N : ℝ) * 2 ^ i.level) ≤ 2 * ((i.coords a * N + p : Nat) : ℝ) / (N * 2 ^ i.level) := by
          rw [div_le_div_iff_of_pos_right hpos]; linarith
        linarith
      have e : (v i p).val = -rd.val := by rw [h]; rfl
      rw [e, abs_le] at near
      have := mul_le_mul_of_nonneg_left hpl hr.le
      have e1 : rd.val * (-1 + 2 / 2 ^ 46) = -rd.val + 128 * (rd.val / 2 ^ 52) := by ring
      have e2 : rd.val * (33 / 2 ^ 52) = 33 * (rd.val / 2 ^ 52) := by ring
      have : 0 < rd.val / 2 ^ 52 := by positivity
      linarith [near.1]
    · refine Or.inr ?_
      by_contra hne
      have hle := index_le hc hp
      have hk : i.coords a * N + p + 1 ≤ N * 2 ^ i.level := by
        by_contra h0
        refine hne ((place_last hN hc hp).1 ?_)
        rw [place_eq hN, show i.coords a * N + p = N * 2 ^ i.level by omega]
        push_cast
        field_simp
        norm_num
      have hpl : place N (i.coords a) i.level p ≤ 1 - 2 / 2 ^ 46 := by
        rw [place_eq hN]
        have h1 : ((i.coords a * N + p : Nat) : ℝ) + 1 ≤ N * 2 ^ i.level := by exact_mod_cast hk
        have : 2 * ((i.coords a * N + p : Nat) : ℝ) / (N * 2 ^ i.level) ≤ 2 - 2 / ((N : ℝ) * 2 ^ i.level) := by
          rw [div_le_iff₀ hpos, sub_mul, div_mul_cancel₀ _ hpos.ne']; linarith
        linarith
      have e : (v i p).val = rd.val := by rw [h]
      rw [e, abs_le] at near
      have := mul_le_mul_of_nonneg_left hpl hr.le
      have e1 : rd.val * (1 - 2 / 2 ^ 46) = rd.val - 128 * (rd.val / 2 ^ 52) := by ring
      have e2 : rd.val * (33 / 2 ^ 52) = 33 * (rd.val / 2 ^ 52) := by ring
      have : 0 < rd.val / 2 ^ 52 := by positivity
      linarith [near.2]
  · rintro (h | h)
    · exact Or.inl (Dbl.ext (hv.first i p hi hp ((place_first hN).2 h)))
    · exact Or.inr (Dbl.ext (hv.last i p hi hp ((place_last hN hc hp).2 h)))

theorem zero_mul_double (d : Dbl R) : (0 : Dbl R) * d = 0 := by
  refine Dbl.ext ?_
  show R.rnd (0 * d.val) = 0
  rw [zero_mul, R.rnd_double isDouble_zero]

/-- The fluxes of a block. -/
theorem block_angmom {N : Nat} {B : Arr 2 (Dbl R × Dbl R)} (hN : 1 ≤ N) (hb : (N + 2) * (N + 2) < 2 ^ 31) {x y : Nat → Dbl R}
    (h : Grid B (N + 1) (N + 1) fun p q => (x p, y q)) (a : Fin 2) (rd : Dbl R) {F : Arr 2 (Dbl R × Dbl R × Dbl R)} {f : Nat → Nat → Dbl R × Dbl R × Dbl R}
    (hF : Along a F (N + 1) N f) :
    ∃ W, blockAngmomDouble a rd B F = .ok W ∧ Along a W (N + 1) N fun p q =>
      let X := if a = 0 then (x p, (y q + y (q + 1)) * Dbl.half) else ((x q + x (q + 1)) * Dbl.half, y p)
      let d := if a = 0 then y (q + 1) - y q else x (q + 1) - x q
      let g := toAngmomDouble a rd X (f p q)
      (g.1 * d, g.2.1 * d, g.2.2 * d) := by
  obtain ⟨h1, _⟩ := grid_small hb
  have h2 : (N + 1) * N < 2 ^ 31 := lt_of_le_of_lt (Nat.mul_le_mul (by omega) (by omega)) hb
  have h3 : N < 2 ^ 64 := by omega
  have hB : Along a B (N + 1) (N + 1) (fun p q => if a = 0 then (x p, y q) else (x q, y p)) := by
    fin_cases a
    · exact h
    · exact h
  obtain ⟨D0, e0, k0⟩ := Along.differenceWith (a := other a) ((hB.map fun p => if a = 0 then p.2 else p.1).swap) h1 h1
  obtain ⟨D1, e1, k1⟩ := Along.midpointWith (Dbl.half, Dbl.half) hB h1 h1
  obtain ⟨D2, e2, k2⟩ := k1.binaryOp hF (toAngmomDouble a rd)
  have k0' : Along a D0 (N + 1) N (fun p q => if a = 0 then y (q + 1) - y q else x (q + 1) - x q) := by
    fin_cases a
    · exact k0
    · exact k0
  obtain ⟨D3, e3, k3⟩ := k2.binaryOp k0' (fun f d => (f.1 * d, f.2.1 * d, f.2.2 * d))
  obtain ⟨D4, e4, k4⟩ := k3.evaluate (by omega) hN h2
  refine ⟨D4, ?_, k4.congr rfl rfl fun p _ q _ => ?_⟩
  · unfold blockAngmomDouble facePositionsDouble
    rw [e0, Outcome.bind_ok, e1, Outcome.bind_ok, e2, Outcome.bind_ok, e3, Outcome.bind_ok, e4]
  · dsimp only
    have e : ((if a = 0 then (x p, y q) else (x q, y p)) + if a = 0 then (x p, y (q + 1)) else (x (q + 1), y p)) * ((Dbl.half : Dbl R), (Dbl.half : Dbl R)) =
        if a = 0 then (x p, (y q + y (q + 1)) * Dbl.half) else ((x q + x (q + 1)) * Dbl.half, y p) := by
      split
      · exact Prod.ext (half_self _) rfl
      · exact Prod.ext rfl (half_self _)
    rw [e]

/-- The middle between two numbers of the domain. -/
theorem middle_error {rd u v : Dbl R} (hr : 2 ^ (-300 : ℤ) ≤ rd.val) (hu : |u.val| ≤ rd.val) (hv : |v.val| ≤ rd.val) :
    |((u + v) * Dbl.half).val - (u.val + v.val) / 2| ≤ rd.val * (1 / 2 ^ 52) := by
  have hp : 0 < rd.val := lt_of_lt_of_le (zpow_pos two_pos _) hr
  have hd : IsDouble (2 * rd.val) := by
    obtain ⟨m, e, h1, h2, h3⟩ := rd.isDouble
    exact ⟨m, e + 1, h1, by omega, by rw [h3, zpow_add_one₀ two_ne_zero]; ring⟩
  have hdn : IsDouble (-(2 * rd.val)) := by
    obtain ⟨m, e, h1, h2, h3⟩ := hd
    exact ⟨-m, e, by rwa [abs_neg], h2, by rw [h3]; push_cast; ring⟩
  have small : (2 : ℝ) ^ (-1075 : ℤ) ≤ rd.val * (1 / 2 ^ 53) := by
    have e1 : (2 : ℝ) ^ (-1075 : ℤ) ≤ 2 ^ (-300 : ℤ) * 2 ^ (-53 : ℤ) := by
      rw [← zpow_add₀ two_ne_zero]; exact zpow_le_zpow_right₀ one_le_two (by norm_num)
    have e2 : (2 : ℝ) ^ (-53 : ℤ) = 1 / 2 ^ 53 := by rw [zpow_neg, one_div]; norm_cast
    rw [e2] at e1
    exact e1.trans (by gcongr)
  rw [abs_le] at hu hv
  have b1 : |u.val + v.val| ≤ 2 * rd.val := abs_le.2 ⟨by linarith [hu.1, hv.1], by linarith [hu.2, hv.2]⟩
  have b2 : |(u + v).val| ≤ 2 * rd.val := by
    have b := abs_le.1 b1
    show |R.rnd (u.val + v.val)| ≤ _
    rw [abs_le]
    constructor
    · rw [← R.rnd_double hdn]; exact R.mono b.1
    · refine (R.mono b.2).trans (le_of_eq (R.rnd_double hd))
  have c1 : |(u + v).val - (u.val + v.val)| ≤ rd.val * (1 / 2 ^ 52) := by
    show |R.rnd (u.val + v.val) - _| ≤ _
    rcases R.error (u.val + v.val) with h | h
    · refine h.trans ?_
      rw [div_le_iff₀ (by positivity)]
      calc _ ≤ 2 * rd.val := b1
        _ = _ := by ring
    · refine h.2.trans (small.trans ?_)
      gcongr <;> norm_num
  have c2 : |((u + v) * Dbl.half).val - (u + v).val * (1 / 2)| ≤ rd.val * (1 / 2 ^ 53) := by
    show |R.rnd ((u + v).val * (1 / 2)) - _| ≤ _
    have b3 : |(u + v).val * (1 / 2)| ≤ rd.val := by rw [abs_mul, abs_of_pos (by norm_num : (0 : ℝ) < 1 / 2)]; linarith
    rcases R.error ((u + v).val * (1 / 2)) with h | h
    · refine h.trans ?_
      rw [div_le_iff₀ (by positivity)]
      calc _ ≤ rd.val := b3
        _ = _ := by ring
    · exact h.2.trans small
  rw [abs_le] at c1 c2 ⊢
  have e : rd.val * (1 / 2 ^ 52) = 2 * (rd.val * (1 / 2 ^ 53)) := by ring
  rw [e] at c1 ⊢
  constructor <;> linarith [c1.1, c1.2, c2.1, c2.2]

open Classical in
/-- **C125**: in double precision the flux of angular momentum is exactly zero through every face on the edge of the domain, and through every other face
it is what the fluxes of momentum give: `X` are the middles of the faces, `d` their lengths, both near to where they should be.  The two blocks on the sides of
a face have the same middle and the same length for it. -/
theorem edge_double (hs : Shift sh) (sqrt : Dbl R → Dbl R) (pred : Nat → Dbl R → Bool) (N depth : Nat) (hN : 1 ≤ N)
    (hb : (N + 2) * (N + 2) < 2 ^ 31) (h30 : depth ≤ 30) (rd : Dbl R) (hr : 2 ^ (-300 : ℤ) ≤ rd.val) :
    ∃ (n : Nat) (V : Quad (Dbl R × Dbl R)) (X : Fin 2 → Index 2 → Nat → Nat → Dbl R × Dbl R) (d : Fin 2 → Index 2 → Nat → Dbl R),
      (∀ fuel, n ≤ fuel → createVerticesDouble sh sqrt pred fuel N depth rd = .ok V) ∧
      (∀ a i B, LeafAt V i B → ∀ F f, Along a F (N + 1) N f → ∃ W, blockAngmomDouble a rd B F = .ok W ∧
        Along a W (N + 1) N fun p q => ((f p q).1 * d a i q,
          ((X a i p q).1 * (f p q).2.1 + (X a i p q).2 * (f p q).2.2) * d a i q,
          if OnEdge N a i p then 0 else ((X a i p q).1 * (f p q).2.2 - (X a i p q).2 * (f p q).2.1) * d a i q)) ∧
      (∀ a i B, LeafAt V i B → ∀ p q : Nat, p ≤ N → q < N →
        |(onAxis a (X a i p q)).val - rd.val * place N (i.coords a) i.level p| ≤ rd.val * ((i.level + 3) / 2 ^ 52) ∧
        |(onAxis (other a) (X a i p q)).val -
          rd.val * ((place N (i.coords (other a)) i.level q + place N (i.coords (other a)) i.level (q + 1)) / 2)| ≤ rd.val * ((i.level + 4) / 2 ^ 52) ∧
        0 < d a i q) ∧
      (∀ a i j B C, LeafAt V i B → LeafAt V j C → i.level = j.level → i.coords a + 1 = j.coords a → i.coords (other a) = j.coords (other a) →
        ∀ q < N, X a i N q = X a j 0 q ∧ d a i q = d a j q) := by
  have h46 := zones_le hb h30
  have hpos : 0 < rd.val := lt_of_lt_of_le (zpow_pos two_pos _) hr
  obtain ⟨n, V, x, y, h1, _, hlev, hVV, hx, hy, hstep⟩ := vertices_double hs sqrt pred N depth hN hb h30 rd hr
  -- the lines on either axis
  let z : Fin 2 → Index 2 → Nat → Dbl R := fun a => if a = 0 then x else y
  have hz : ∀ a, Placed rd.val 3 N depth (fun i => ∃ b, LeafAt V i b) a (z a) := by
    intro a; fin_cases a
    · exact hx
    · exact hy
  have hval : ∀ i, (∃ b, LeafAt V i b) → i.Valid ∧ i.level ≤ depth := fun i h => ⟨h.elim fun _ hb => hb.valid, hlev i h⟩
  let mid : Fin 2 → Index 2 → Nat → Dbl R := fun a i q => (z a i q + z a i (q + 1)) * Dbl.half
  refine ⟨n, V, fun a i p q => if a = 0 then (x i p, mid 1 i q) else (mid 0 i q, y i p), fun a i q => z (other a) i (q + 1) - z (other a) i q, h1,
    fun a i B hB F f hF => ?_, fun a i B hB p q hp hq => ⟨?_, ?_, ?_⟩, fun a i j B C hi hj hl ha ho q hq => ?_⟩
  · obtain ⟨W, e, k⟩ := block_angmom hN hb (hVV.2 i B hB) a rd hF
    refine ⟨W, e, k.congr rfl rfl fun p hp q _ => ?_⟩
    have hed := edge_iff hN h30 h46 hpos hval (hz a) ⟨B, hB⟩ (Nat.lt_succ_iff.1 hp)
    fin_cases a
    · change (x i p = negDouble rd ∨ x i p = rd) ↔ _ at hed
      by_cases h : OnEdge N 0 i p
      · simp [toAngmomDouble, z, mid, other, hed, h, zero_mul_double]
      · simp [toAngmomDouble, z, mid, other, hed, h]
    · change (y i p = negDouble rd ∨ y i p = rd) ↔ _ at hed
      by_cases h : OnEdge N 1 i p
      · simp [toAngmomDouble, z, mid, other, hed, h, zero_mul_double]
      · simp [toAngmomDouble, z, mid, other, hed, h]
  · have := (hz a).near i p ⟨B, hB⟩ hp
    push_cast at this
    fin_cases a
    · exact this
    · exact this
  · have e : onAxis (other a) (if a = 0 then (x i p, mid 1 i q) else (mid 0 i q, y i p)) = mid (other a) i q := by
      fin_cases a <;> rfl
    dsimp only
    rw [e]
    have m := middle_error hr ((hz (other a)).inside i q ⟨B, hB⟩ (by omega)) ((hz (other a)).inside i (q + 1) ⟨B, hB⟩ (by omega))
    have n1 := (hz (other a)).near i q ⟨B, hB⟩ (by omega)
    have n2 := (hz (other a)).near i (q + 1) ⟨B, hB⟩ (by omega)
    change |(mid (other a) i q).val - _| ≤ _ at m
    push_cast at n1 n2
    rw [abs_le] at m n1 n2 ⊢
    have e1 : rd.val * (((i.level : ℝ) + 4) / 2 ^ 52) = rd.val * (((i.level : ℝ) + 3) / 2 ^ 52) + rd.val * (1 / 2 ^ 52) := by ring
    constructor <;> linarith [m.1, m.2, n1.1, n1.2, n2.1, n2.2]
  · rw [lt_def]
    exact lt_of_lt_of_le (zpow_pos two_pos _) (hstep (z (other a)) (other a) (hz _) i B hB q hq)
  · have s1 : ∀ q ≤ N, z (other a) i q = z (other a) j q := fun q hq =>
      (hz (other a)).same i j q q ⟨B, hi⟩ ⟨C, hj⟩ hq hq (by rw [hl, ho])
    have s2 : z a i N = z a j 0 := (hz a).same i j N 0 ⟨B, hi⟩ ⟨C, hj⟩ le_rfl (Nat.zero_le _) (by
      rw [hl, ← ha, place_eq hN, place_eq hN]; push_cast; ring)
    have s3 : mid (other a) i q = mid (other a) j q := by
      show (_ + _) * _ = (_ + _) * _
      rw [s1 q hq.le, s1 (q + 1) hq]
    refine ⟨?_, by dsimp only; rw [s1 q hq.le, s1 (q + 1) hq]⟩
    fin_cases a
    · exact Prod.ext s2 s3
    · exact Prod.ext s3 s2

/-- With the default options: no angular momentum flows through the edges, with any fluxes `f` of momentum. -/
example (f : Nat → Nat → Dbl Rounding.up × Dbl Rounding.up × Dbl Rounding.up) :
    ∃ (n : Nat) (V : Quad (Dbl Rounding.up × Dbl Rounding.up)),
    (∀ fuel, n ≤ fuel → createVerticesDouble shl1 id (fun l ρ => decide (l = 0 ∨ ρ < Dbl.one)) fuel 24 4 exRadius = .ok V) ∧
    ∀ i B F, LeafAt V i B → i.coords 0 = 0 → Along 0 F 25 24 f → ∃ W w, blockAngmomDouble 0 exRadius B F = .ok W ∧ Along 0 W 25 24 w ∧
      ∀ q, (w 0 q).2.2 = 0 := by
  have e : (2 : ℝ) ^ (-300 : ℤ) ≤ 2 ^ (0 : ℤ) := zpow_le_zpow_right₀ one_le_two (by norm_num)
  obtain ⟨n, V, X, d, h1, h2, _⟩ := edge_double (R := Rounding.up) shl1_shift id
    (fun l ρ => decide (l = 0 ∨ ρ < Dbl.one)) 24 4 (by norm_num) (by norm_num) (by norm_num) exRadius
    (e.trans (by show (2 : ℝ) ^ (0 : ℤ) ≤ ((24 : Nat) : ℝ); norm_num))
  refine ⟨n, V, h1, fun i B F hi hc hF => ?_⟩
  obtain ⟨W, e, k⟩ := h2 0 i B hi F f hF
  exact ⟨W, _, e, k, fun q => if_pos (Or.inl ⟨hc, rfl⟩)⟩

end Verif.Binary
