import Verif.Lemmas.BinaryExtend
import Verif.Props.FluxCorrection
import Mathlib.Tactic.FieldSimp
import Mathlib.Tactic.Linarith
import Mathlib.Tactic.Positivity

/-!
# The fluxes of the binary program
-/

namespace Verif.Nd

open Verif Verif.Binary

/-- Averages along the other axis, with any factor. -/
theorem Along.midpointWith {K : Type} [Add K] [Mul K] (half : K) {a : Fin 2} {A : Arr 2 K} {m n : Nat} {f : Nat → Nat → K}
    (h : Along a A m (n + 1) f) (hm : m < 2 ^ 64) (hn : n + 1 < 2 ^ 64) :
    ∃ D, Nd.midpoint half (other a) A = .ok D ∧ Along a D m n (fun x y => (f x y + f x (y + 1)) * half) := by
  have hb := along_shape_lt (a := a) hm hn
  have hA := along_denotes.mp h
  obtain ⟨U, h1, d1⟩ := dropFirst_denotes hA hb (other a) 1 0 (by rw [if_neg (other_ne a)]; omega)
  obtain ⟨L, h2, d2⟩ := dropFinal_denotes hA hb (other a) 1 (by rw [if_neg (other_ne a)]; omega)
  obtain ⟨D, h3, d3⟩ := binaryOp_denotes d2 d1 (· + ·)
  refine ⟨_, ?_, Along.of_denotes (d3.map (· * half)) (by rw [update_other', if_pos rfl])
    (by rw [Function.update_self, if_neg (other_ne a)]; omega) fun i _ _ => ?_⟩
  · unfold Nd.midpoint
    rw [h2, Outcome.bind_ok, h1, Outcome.bind_ok, h3, Outcome.map_ok]
  · rw [update_other', Function.update_self]

end Verif.Nd

namespace Verif.Binary

open Verif Verif.Nd Verif.Tree Iso2d Geometry

variable {sh : Nat → Outcome Nat}

/-! ### The flux through one face -/

theorem gravPhi_neg {s : Params} (hs : s.softening ≠ 0) (x : ℝ × ℝ) {mass : ℝ} (hm : 0 < mass) (p : ℝ × ℝ) :
    ∃ v, gravPhi s x mass p = .ok v ∧ v < 0 := by
  have hpos : 0 < (p.1 - x.1) * (p.1 - x.1) + (p.2 - x.2) * (p.2 - x.2) + s.softening * s.softening := by
    have := mul_self_pos.2 hs
    have h1 := mul_self_nonneg (p.1 - x.1)
    have h2 := mul_self_nonneg (p.2 - x.2)
    linarith
  unfold gravPhi
  rw [if_neg hpos.ne']
  refine ⟨_, rfl, ?_⟩
  exact div_neg_of_neg_of_pos (by linarith) (Real.rpow_pos_of_pos hpos _)

theorem cs2At_pos {s : Params} {b : TwoBody.State} (h : Physical s b) {x : ℝ × ℝ}
    (hx : s.axisymmetric = true → x.1 * x.1 + x.2 * x.2 ≠ 0) : ∃ c, cs2At s b x = .ok c ∧ 0 < c := by
  unfold cs2At
  rw [if_neg h.mach]
  have hm2 : 0 < s.mach * s.mach := mul_self_pos.2 h.mach
  by_cases hax : s.axisymmetric = true
  · rw [if_pos hax, if_neg (hx hax)]
    refine ⟨_, rfl, ?_⟩
    rw [div_div]
    have h0 : 0 < x.1 * x.1 + x.2 * x.2 := lt_of_le_of_ne (add_nonneg (mul_self_nonneg _) (mul_self_nonneg _)) (hx hax).symm
    exact div_pos (div_pos one_pos (Real.sqrt_pos.2 h0)) hm2
  · rw [if_neg hax]
    obtain ⟨v1, e1, h1⟩ := gravPhi_neg h.softening (position b.body1) h.mass1 x
    obtain ⟨v2, e2, h2⟩ := gravPhi_neg h.softening (position b.body2) h.mass2 x
    rw [e1, Outcome.bind_ok, e2, Outcome.bind_ok]
    refine ⟨_, rfl, ?_⟩
    rw [div_div]
    exact div_pos (by linarith) hm2

theorem hlleChecked_ok (Pl Pr : Tri) {cs2 : ℝ} (h : 0 < cs2) (n : UnitVec ℝ) : hlleChecked Pl Pr cs2 n = .ok (hlle Pl Pr cs2 cs2 n) := by
  unfold hlleChecked
  rw [if_neg]
  have hc : 0 < Real.sqrt cs2 := Real.sqrt_pos.2 h
  rintro (h1 | h1)
  · linarith
  · have h2 : (wavespeeds Pl n cs2).2 ≤ max 0 (max (wavespeeds Pl n cs2).2 (wavespeeds Pr n cs2).2) :=
      le_trans (le_max_left _ _) (le_max_right _ _)
    have h3 : min 0 (min (wavespeeds Pl n cs2).1 (wavespeeds Pr n cs2).1) ≤ (wavespeeds Pl n cs2).1 :=
      le_trans (min_le_right _ _) (min_le_left _ _)
    have h4 : (wavespeeds Pl n cs2).2 - (wavespeeds Pl n cs2).1 = 2 * Real.sqrt cs2 := by unfold wavespeeds; simp only; ring
    linarith

/-- The flux in either mode. -/
noncomputable def intercell (lin : Bool) (s : Params) (a : Fin 2) (b : TwoBody.State) (h : ℝ) (xf : ℝ × ℝ) (p g t : Tri × Tri) : Outcome Tri :=
  if lin then intercellFluxU s a b h xf p g t else intercellFluxQ s a b h xf p g t

theorem intercell_ok (lin : Bool) {s : Params} {b : TwoBody.State} (hp : Physical s b) (a : Fin 2) (h : ℝ) {x : ℝ × ℝ}
    (hx : s.axisymmetric = true → x.1 * x.1 + x.2 * x.2 ≠ 0) (p g t : Tri × Tri) : ∃ v, intercell lin s a b h x p g t = .ok v := by
  have hU : ∃ v, intercellFluxU s a b h x p g t = .ok v := by
    obtain ⟨c, ec, hc⟩ := cs2At_pos hp hx
    have hnu : ∃ v, nuAt s x c = .ok v := by
      unfold nuAt
      by_cases h1 : s.nu > 0
      · exact ⟨_, if_pos h1⟩
      · rw [if_neg h1, if_neg]
        · exact ⟨_, rfl⟩
        · rintro (h2 | h2)
          · linarith
          · exact hp.mach h2
    obtain ⟨v, ev⟩ := hnu
    unfold intercellFluxU
    rw [ec, Outcome.bind_ok, ev, Outcome.bind_ok]
    have hax : ∃ n, (UnitVec.onAxis (a : Nat) : Outcome (UnitVec ℝ)) = .ok n := by fin_cases a <;> exact ⟨_, rfl⟩
    obtain ⟨n, en⟩ := hax
    rw [en, Outcome.bind_ok, hlleChecked_ok _ _ hc, Outcome.bind_ok]
    have hv : ∀ mu, ∃ w, viscousFlux (a : Nat) g t mu = .ok w := by
      intro mu
      fin_cases a <;> exact ⟨_, rfl⟩
    obtain ⟨w, ew⟩ := hv _
    rw [ew, Outcome.bind_ok]
    exact ⟨_, rfl⟩
  unfold intercell
  by_cases hl : lin = true
  · rw [if_pos hl]; exact hU
  · rw [if_neg hl]
    obtain ⟨v, ev⟩ := hU
    unfold intercellFluxQ
    rw [ev, Outcome.map_ok]
    exact ⟨_, rfl⟩

/-! ### Positions -/

/-- The middle of a face across axis `a`. -/
noncomputable def facePos (rd : ℝ) (N : Nat) (a : Fin 2) (i : Index 2) (x y : Nat) : ℝ × ℝ :=
  match a with
  | 0 => (coordinate rd N i 0 x, coordinate rd N i 1 (y + 1 / 2))
  | 1 => (coordinate rd N i 0 (y + 1 / 2), coordinate rd N i 1 x)

theorem cellSize_pos {rd : ℝ} (h : 0 < rd) {N : Nat} (hN : 1 ≤ N) (i : Index 2) : 0 < cellSize rd N i := by
  unfold cellSize
  have : (0 : ℝ) < N := by exact_mod_cast hN
  positivity

/-- The coordinate in units of half cells from the middle of the domain. -/
theorem coordinate_eq {rd : ℝ} {N : Nat} (hN : 1 ≤ N) (i : Index 2) (a : Fin 2) (x : ℝ) :
    coordinate rd N i a x = (2 * (i.coords a * N + x) - N * 2 ^ i.level) * (cellSize rd N i / 2) := by
  unfold coordinate cellSize
  have : (N : ℝ) ≠ 0 := by exact_mod_cast (by omega : N ≠ 0)
  field_simp
  ring

theorem odd_of_half_zero {rd : ℝ} (h : 0 < rd) {N : Nat} (hN : 1 ≤ N) {i : Index 2} {a : Fin 2} {y : Nat}
    (h0 : coordinate rd N i a (y + 1 / 2) = 0) : i.level = 0 ∧ N % 2 = 1 := by
  rw [coordinate_eq hN] at h0
  have hc := cellSize_pos h hN i
  have h1 : 2 * ((i.coords a : ℝ) * N + (y + 1 / 2)) - N * 2 ^ i.level = 0 := by
    rcases mul_eq_zero.1 h0 with h1 | h1
    · exact h1
    · linarith
  have h2 : 2 * (i.coords a * N + y) + 1 = N * 2 ^ i.level := by
    have : (2 * ((i.coords a : ℝ) * N + y) + 1) = N * 2 ^ i.level := by linarith
    exact_mod_cast this
  rcases Nat.eq_zero_or_pos i.level with hl | hl
  · rw [hl] at h2
    exact ⟨hl, by omega⟩
  · obtain ⟨l, hl⟩ : ∃ l, i.level = l + 1 := ⟨i.level - 1, by omega⟩
    rw [hl, pow_succ, ← mul_assoc] at h2
    omega

theorem facePos_ne {rd : ℝ} (h : 0 < rd) {N : Nat} (hN : 1 ≤ N) (a : Fin 2) {i : Index 2} (hv : i.Valid) (x y : Nat) :
    (facePos rd N a i x y).1 * (facePos rd N a i x y).1 + (facePos rd N a i x y).2 * (facePos rd N a i x y).2 ≠ 0 := by
  intro h0
  have hz : (facePos rd N a i x y).1 = 0 ∧ (facePos rd N a i x y).2 = 0 := by
    have h1 := mul_self_nonneg (facePos rd N a i x y).1
    have h2 := mul_self_nonneg (facePos rd N a i x y).2
    exact ⟨mul_self_eq_zero.1 (by linarith), mul_self_eq_zero.1 (by linarith)⟩
  have key : coordinate rd N i (other a) (y + 1 / 2) = 0 ∧ coordinate rd N i a x = 0 := by
    fin_cases a
    · exact ⟨hz.2, hz.1⟩
    · exact ⟨hz.1, hz.2⟩
  obtain ⟨hl, hodd⟩ := odd_of_half_zero h hN key.1
  have hc := cellSize_pos h hN i
  have h1 := key.2
  rw [coordinate_eq hN] at h1
  have h2 : 2 * ((i.coords a : ℝ) * N + x) - N * 2 ^ i.level = 0 := by
    rcases mul_eq_zero.1 h1 with h1 | h1
    · exact h1
    · linarith
  have h3 : 2 * (i.coords a * N + x) = N * 2 ^ i.level := by
    have : (2 * ((i.coords a : ℝ) * N + x)) = N * 2 ^ i.level := by linarith
    exact_mod_cast this
  rw [hl] at h3
  omega

theorem center_ne {rd : ℝ} (h : 0 < rd) {N : Nat} (hN : 1 ≤ N) {i : Index 2} (hoff : i.level ≠ 0 ∨ N % 2 = 0) (x y : Nat) :
    (cellCenter rd N i x y).1 * (cellCenter rd N i x y).1 + (cellCenter rd N i x y).2 * (cellCenter rd N i x y).2 ≠ 0 := by
  intro h0
  have h1 := mul_self_nonneg (cellCenter rd N i x y).1
  have h2 := mul_self_nonneg (cellCenter rd N i x y).2
  obtain ⟨hl, hodd⟩ := odd_of_half_zero (a := 0) (y := x) h hN (mul_self_eq_zero.1 (by linarith : (cellCenter rd N i x y).1 * (cellCenter rd N i x y).1 = 0))
  omega

theorem coordinate_next {rd : ℝ} {N : Nat} {i j : Index 2} {a : Fin 2} (h : Follows False a i j) :
    coordinate rd N i a N = coordinate rd N j a 0 := by
  have h1 : j.coords a = i.coords a + 1 := by
    rcases h.2.2 with h | h
    · exact h
    · exact h.1.elim
  unfold coordinate cellSize
  rw [h1, h.1]
  push_cast
  ring

theorem coordinate_other {rd : ℝ} {N : Nat} {i j : Index 2} {a : Fin 2} {w : Prop} (h : Follows w a i j) (x : ℝ) :
    coordinate rd N i (other a) x = coordinate rd N j (other a) x := by
  unfold coordinate cellSize
  rw [h.2.1 _ (other_ne a), h.1]

theorem facePos_next {rd : ℝ} {N : Nat} {i j : Index 2} {a : Fin 2} (h : Follows False a i j) (y : Nat) :
    facePos rd N a i N y = facePos rd N a j 0 y := by
  have h1 := coordinate_next (rd := rd) (N := N) h
  have h2 := coordinate_other (rd := rd) (N := N) h (y + 1 / 2)
  fin_cases a
  · exact Prod.ext (h1.trans (by simp [facePos])) h2
  · exact Prod.ext h2 (h1.trans (by simp [facePos]))

/-! ### Blocks -/

theorem blockSpacing_ok (hs : Shift sh) {m : SolverData} {lin : Bool} {D N : Nat} (hm : MeshData lin m D N) {i : Index 2} (hl : i.level ≤ 30) :
    blockSpacing sh m i = .ok (cellSize m.params.domainRadius N i) := by
  have hN := hm.shaped.pos
  unfold blockSpacing
  rw [hs i.level hl, Outcome.bind_ok, if_neg]
  · rw [hm.blockSize]
    unfold cellSize
    push_cast
    rfl
  · rw [hm.blockSize]
    have := Nat.two_pow_pos i.level
    omega

/-- In the safe mode there are no gradients. -/
theorem gradient_zero (z : Fin 9 → Bool) (h : ℝ) (a b c : Tri) : gradient z 0 h a b c = 0 := by
  have key : ∀ (x y w : Bool) (l m r : ℝ), Plm.plmGradient x y w 0 l m r = 0 := by
    intro x y w l m r
    unfold Plm.plmGradient
    dsimp only
    rw [mul_zero, mul_zero]
    have : Plm.minabs (0 : ℝ) ((r - l) * (1 / 2)) 0 = 0 := by
      unfold Plm.minabs
      rw [abs_zero, min_eq_left (a := (0 : ℝ)) (b := |(r - l) * (1 / 2)|) (abs_nonneg _), min_self]
    rw [this, mul_zero]
  unfold gradient
  rw [key, key, key]
  exact Tri.ext (zero_div _) (zero_div _) (zero_div _)

theorem gradients_ok (hs : TotalShift sh) {m : SolverData} {lin : Bool} {D N : Nat} (hm : MeshData lin m D N) (z : Fin 9 → Bool) (theta : ℝ)
    (a : Fin 2) {u : Quad Tri} {f g : Index 2 → Nat → Nat → Tri} (hu : Extended m.vertices N a u f g) :
    ∃ (v : Quad Tri) (d : Index 2 → Nat → Nat → Tri), gradients sh m z theta a u = .ok v ∧ Blocks m.vertices v N N d ∧
      (theta = 0 → ∀ i c, LeafAt m.vertices i c → ∀ x y, d i x y = 0) := by
  have hN := hm.shaped.pos
  have hlt := hm.shaped.lt
  have h30 := hm.shaped.small
  have hD := hm.shaped.depth.sameShape hu.shape
  obtain ⟨r, er, hr, hl⟩ := pairIndexes_ok u D hD (by omega)
  obtain ⟨v, d, e, hsh, hv⟩ := mapM_choose (f := fun p : Index 2 × Arr 2 Tri => gradientBlock sh m z theta a p.1 p.2)
    (P := fun i B (d : Nat → Nat → Tri) => Grid B N N d ∧ (theta = 0 → ∀ x y, d x y = 0)) r (fun i p hp => by
      obtain ⟨h1, h2⟩ := hl i p hp
      have hlev := hD i _ h2
      obtain ⟨Z, eZ, hZ⟩ := (hu.along i _ h2).zip3 (by omega) (by omega)
      have hZ' := hZ.map fun q => gradient z theta (cellSize m.params.domainRadius N i) q.1 q.2.1 q.2.2
      obtain ⟨E, eE, hE⟩ := hZ'.evaluate hN hN (hm.shaped.of_le (by omega) (by omega))
      refine ⟨E, turn a _, ?_, along_turn (a := a).1 (by rw [turn_turn]; exact hE), fun h0 x y => ?_⟩
      swap
      · subst h0
        have : ∀ F : Nat → Nat → Tri, (∀ x y, F x y = 0) → turn a F x y = 0 := by
          intro F hF
          obtain rfl | rfl : a = 0 ∨ a = 1 := by fin_cases a <;> simp
          · exact hF x y
          · exact hF y x
        exact this _ fun x y => gradient_zero z _ _ _ _
      unfold gradientBlock
      rw [h1, blockSpacing_ok hs.1 hm (by omega), Outcome.bind_ok, if_neg (cellSize_pos hm.radius hN i).ne', eZ, Outcome.bind_ok, eE])
  have hsh' := (hsh.trans hr).trans hu.shape
  refine ⟨v, d, ?_, ⟨hsh', fun i b hi => (hv i b hi).1⟩, fun h0 i c hi => ?_⟩
  swap
  · obtain ⟨B, hB⟩ := (hsh' i).2 ⟨c, hi⟩
    exact (hv i B hB).2 h0
  unfold gradients
  rw [er, Outcome.bind_ok, e]

theorem axisFluxes_ok (hs : TotalShift sh) {m : SolverData} {lin : Bool} {D N : Nat} (hm : MeshData lin m D N) {b : TwoBody.State}
    (hp : Physical m.params b) (a : Fin 2) {pe ge he : Quad Tri} {p p' g g' h h' : Index 2 → Nat → Nat → Tri}
    (hP : Extended m.vertices N a pe p p') (hG : Extended m.vertices N a ge g g') (hH : Extended m.vertices N a he h h')
    (i : Index 2) (b0 : Arr 2 (ℝ × ℝ)) (hi : LeafAt m.vertices i b0) :
    ∃ (B : Arr 2 Tri) (F : Nat → Nat → Tri), axisFluxes sh lin m b a pe ge he i = .ok B ∧ Along a B (N + 1) N F ∧
      ∀ x, x < N + 1 → ∀ y, y < N → ∃ v, intercell lin m.params a b (cellSize m.params.domainRadius N i)
        (facePos m.params.domainRadius N a i x y) (p' i x y, p' i (x + 1) y) (g' i x y, g' i (x + 1) y) (h' i x y, h' i (x + 1) y) = .ok v ∧
        F x y = v.mul (cellSize m.params.domainRadius N i) := by
  have hN := hm.shaped.pos
  have hlt := hm.shaped.lt
  have h30 := hm.shaped.small
  have hlev := hm.shaped.depth i b0 hi
  have hNr : (N : ℝ) ≠ 0 := by exact_mod_cast (by omega : N ≠ 0)
  have hv : Along a b0 (N + 1) (N + 1) _ := along_turn (a := a).2 (hm.vertices.2 i b0 hi)
  obtain ⟨d, ed, hd⟩ := ((hv.map (component (other a))).swap).difference (by omega) (by omega)
  have hd' : Along a d (N + 1) N fun _ _ => cellSize m.params.domainRadius N i := by
    have := hd.swap
    have e : other (other a) = a := by fin_cases a <;> rfl
    rw [e] at this
    refine this.congr rfl rfl fun x _ y _ => ?_
    fin_cases a
    · show coordinate m.params.domainRadius N i 1 ((y + 1 : Nat) : ℝ) - coordinate m.params.domainRadius N i 1 y = _
      unfold coordinate; push_cast; ring
    · show coordinate m.params.domainRadius N i 0 ((y + 1 : Nat) : ℝ) - coordinate m.params.domainRadius N i 0 y = _
      unfold coordinate; push_cast; ring
  obtain ⟨xf, exf, hxf⟩ := hv.midpointWith ((1 / 2, 1 / 2) : ℝ × ℝ) (by omega) (by omega)
  have hxf' : Along a xf (N + 1) N (facePos m.params.domainRadius N a i) := by
    refine hxf.congr rfl rfl fun x _ y _ => ?_
    fin_cases a
    · refine Prod.ext ?_ ?_
      · show (coordinate m.params.domainRadius N i 0 x + coordinate m.params.domainRadius N i 0 x) * (1 / 2) = coordinate m.params.domainRadius N i 0 x
        ring
      · show (coordinate m.params.domainRadius N i 1 y + coordinate m.params.domainRadius N i 1 ((y + 1 : Nat) : ℝ)) * (1 / 2)
          = coordinate m.params.domainRadius N i 1 (y + 1 / 2)
        unfold coordinate; push_cast; ring
    · refine Prod.ext ?_ ?_
      · show (coordinate m.params.domainRadius N i 0 y + coordinate m.params.domainRadius N i 0 ((y + 1 : Nat) : ℝ)) * (1 / 2)
          = coordinate m.params.domainRadius N i 0 (y + 1 / 2)
        unfold coordinate; push_cast; ring
      · show (coordinate m.params.domainRadius N i 1 x + coordinate m.params.domainRadius N i 1 x) * (1 / 2) = coordinate m.params.domainRadius N i 1 x
        ring
  obtain ⟨P, hP1, eP⟩ := at_ok hs.1 hP.shape hi (by omega)
  obtain ⟨G, hG1, eG⟩ := at_ok hs.1 hG.shape hi (by omega)
  obtain ⟨H, hH1, eH⟩ := at_ok hs.1 hH.shape hi (by omega)
  obtain ⟨PP, ePP, hPP⟩ := (hP.along i P hP1).zip2 (by omega) (by omega)
  obtain ⟨GG, eGG, hGG⟩ := (hG.along i G hG1).zip2 (by omega) (by omega)
  obtain ⟨HH, eHH, hHH⟩ := (hH.along i H hH1).zip2 (by omega) (by omega)
  obtain ⟨A1, eA1, hA1⟩ := hxf'.binaryOp hPP Prod.mk
  obtain ⟨A2, eA2, hA2⟩ := hGG.binaryOp hHH Prod.mk
  obtain ⟨Z, eZ, hZ⟩ := hA1.binaryOp hA2 Prod.mk
  have hex : ∀ x y, ∃ v, intercell lin m.params a b (cellSize m.params.domainRadius N i)
        (facePos m.params.domainRadius N a i x y) (p' i x y, p' i (x + 1) y) (g' i x y, g' i (x + 1) y) (h' i x y, h' i (x + 1) y) = .ok v :=
    fun x y => intercell_ok lin hp a _ (fun _ => facePos_ne hm.radius hN a hi.valid x y) _ _ _
  choose v hv2 using hex
  have hF := hZ.mapO (u := fun w =>
    if lin then intercellFluxU m.params a b (cellSize m.params.domainRadius N i) w.1.1 w.1.2 w.2.1 w.2.2
    else intercellFluxQ m.params a b (cellSize m.params.domainRadius N i) w.1.1 w.1.2 w.2.1 w.2.2) (z := v) fun x _ y _ => hv2 x y
  obtain ⟨M, eM, hM⟩ := hF.binaryOp hd' Tri.mul
  obtain ⟨E, eE, hE⟩ := hM.evaluate (by omega) hN (hm.shaped.of_le (by omega) (by omega))
  refine ⟨E, _, ?_, hE, fun x _ y _ => ⟨v x y, hv2 x y, rfl⟩⟩
  unfold axisFluxes
  rw [((tree_at hs.1 m.vertices i (by omega)).1 b0).2 hi, Outcome.bind_ok, ed, Outcome.bind_ok, exf, Outcome.bind_ok, eP, Outcome.bind_ok, ePP,
    Outcome.bind_ok, eG, Outcome.bind_ok, eGG, Outcome.bind_ok, eH, Outcome.bind_ok, eHH, Outcome.bind_ok, eA1, Outcome.bind_ok, eA2,
    Outcome.bind_ok, eZ, Outcome.bind_ok, blockSpacing_ok hs.1 hm (by omega), Outcome.bind_ok, eM, Outcome.bind_ok, eE]

end Verif.Binary
