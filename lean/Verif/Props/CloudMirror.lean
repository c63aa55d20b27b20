import Verif.Spec.CloudMirror
import Verif.Lemmas.CloudFound
import Verif.Props.Frame
import Verif.Props.Srhd
import Verif.Props.Plm
import Verif.Props.CloudSetup
import Verif.Props.JetNozzle
import Verif.Model.CloudInflow

/-!
# C127: north and south, and the sense of rotation, in the cloud program
-/

namespace Verif.Cloud

open Verif.Nd Verif.Sedov Geometry Real

variable {m n : Nat} {r q : Nat → ℝ}

/-- Signs of the components. -/
def flip (e : Fin 5 → ℝ) (P : Vec 5 ℝ) : Vec 5 ℝ := fun a => e a * P a

theorem mirror_eq (P : Vec 5 ℝ) : mirror P = flip ![1, 1, -1, 1, 1] P := by
  funext a
  unfold mirror flip
  fin_cases a <;> simp

theorem counter_eq (P : Vec 5 ℝ) : counter P = flip ![1, 1, 1, -1, 1] P := by
  funext a
  unfold counter flip
  fin_cases a <;> simp

/-! ## Slopes -/

theorem slope_flip {e : Fin 5 → ℝ} (z z' : Fin 5 → Bool) {theta : ℝ} (ht : 0 ≤ theta) (N : Nat) (p p' : Nat → Vec 5 ℝ)
    (h : ∀ k, k < N → p' k = flip e (p k)) (k : Nat) (hk : k < N) : slope z' theta N p' k = flip e (slope z theta N p k) := by
  unfold slope
  split_ifs with h0
  · funext a
    exact (mul_zero _).symm
  · rw [h (k - 1) (by omega), h k hk, h (k + 1) (by omega)]
    funext a
    unfold Plm.plmGradientSeq flip
    have := Plm.plm_scale (z' a) (z' a) (z' a) (z a) (z a) (z a) theta (p (k - 1) a) (p k a) (p (k + 1) a) (e a) 0 ht
    simpa only [add_zero] using this

theorem slope_reverse (z z' : Fin 5 → Bool) {theta : ℝ} (ht : 0 ≤ theta) (N : Nat) (p : Nat → Vec 5 ℝ) (k : Nat) (hk : k < N) :
    slope z' theta N (fun k => p (N - 1 - k)) k = -slope z theta N p (N - 1 - k) := by
  unfold slope
  by_cases h0 : k = 0 ∨ k + 1 = N
  · rw [if_pos h0, if_pos (by omega), neg_zero]
  · rw [if_neg h0, if_neg (by omega)]
    dsimp only
    rw [show N - 1 - (k - 1) = N - 1 - k + 1 by omega, show N - 1 - (k + 1) = N - 1 - k - 1 by omega]
    funext a
    exact Plm.plm_reflect _ _ _ _ _ _ theta _ _ _ ht

theorem sides_flip {e : Fin 5 → ℝ} (method : Int) (z z' : Fin 5 → Bool) {theta : ℝ} (ht : 0 ≤ theta) (N : Nat) (p p' : Nat → Vec 5 ℝ)
    (h : ∀ k, k < N → p' k = flip e (p k)) (k : Nat) (hk : k + 1 < N) :
    sides method z' theta N p' k = (flip e (sides method z theta N p k).1, flip e (sides method z theta N p k).2) := by
  unfold sides
  rw [slope_flip z z' ht N p p' h k (by omega), slope_flip z z' ht N p p' h (k + 1) hk, h k (by omega), h (k + 1) hk]
  split_ifs
  · rfl
  · refine Prod.ext ?_ ?_
    · funext a
      unfold flip
      dsimp only
      ring
    · funext a
      unfold flip
      dsimp only
      ring

theorem sides_reverse (method : Int) (z z' : Fin 5 → Bool) {theta : ℝ} (ht : 0 ≤ theta) (N : Nat) (p : Nat → Vec 5 ℝ) (k : Nat) (hk : k + 1 < N) :
    sides method z' theta N (fun k => p (N - 1 - k)) k = ((sides method z theta N p (N - 2 - k)).2, (sides method z theta N p (N - 2 - k)).1) := by
  unfold sides
  rw [slope_reverse z z' ht N p k (by omega), slope_reverse z z' ht N p (k + 1) hk]
  dsimp only
  rw [show N - 1 - (k + 1) = N - 2 - k by omega,
    show N - 1 - k = N - 2 - k + 1 by omega]
  split_ifs
  · rfl
  · refine Prod.ext ?_ ?_
    · funext a
      simp only [Pi.neg_apply]
      ring
    · funext a
      simp only [Pi.neg_apply]
      ring

theorem column_flip {e : Fin 5 → ℝ} (first : Vec 5 ℝ) (p : Nat → Vec 5 ℝ) (k : Nat) :
    column (flip e first) m (fun k => flip e (p k)) k = flip e (column first m p k) := by
  unfold column
  split_ifs <;> rfl

/-! ## Gases that know no north and south -/

/-- In the mirror, the states and fluxes of the gas are flipped; polar fluxes run the other way. -/
structure Gas.NorthSouth (g : Gas) (e : Fin 5 → ℝ) : Prop where
  recover : ∀ U, g.recover (flip e U) = (g.recover U).map (flip e)
  radial : ∀ l r, g.riemann 0 (flip e l) (flip e r) = (g.riemann 0 l r).map (flip e)
  polar : ∀ l r, g.riemann 1 (flip e r) (flip e l) = (g.riemann 1 l r).map fun F => -flip e F
  source : ∀ P x y, g.source (flip e P) x (π - y) = (g.source P x y).map (flip e)

/-- The gas takes flipped states to flipped fluxes. -/
structure Gas.Flips (g : Gas) (e : Fin 5 → ℝ) : Prop where
  recover : ∀ U, g.recover (flip e U) = (g.recover U).map (flip e)
  riemann : ∀ a l r, g.riemann a (flip e l) (flip e r) = (g.riemann a l r).map (flip e)
  source : ∀ P x y, g.source (flip e P) x y = (g.source P x y).map (flip e)

theorem wedge_mirror (r0 r1 a b : ℝ) : wedge r0 r1 (π - b) (π - a) = wedge r0 r1 a b := by
  unfold wedge
  rw [Real.cos_pi_sub, Real.cos_pi_sub]
  ring

theorem zone_mirror (x a b : ℝ) : zone x (π - b) (π - a) = zone x a b := by
  unfold zone
  rw [Real.cos_pi_sub, Real.cos_pi_sub]
  ring

theorem cone_mirror (r0 r1 a : ℝ) : cone r0 r1 (π - a) = cone r0 r1 a := by
  unfold cone
  rw [Real.sin_pi_sub]

theorem divide_flip (e : Fin 5 → ℝ) (U : Vec 5 ℝ) (V : ℝ) : (fun a => flip e U a / V) = flip e fun a => U a / V := by
  funext a
  unfold flip
  ring

theorem found_mirror {g : Gas} {e : Fin 5 → ℝ} (hg : g.NorthSouth e) {inflow inflow' : ℝ → Vec 5 ℝ} {method : Int} {z : Fin 5 → Bool}
    (z' : Fin 5 → Bool) {theta : ℝ} (ht : 0 ≤ theta) {q' : Nat → ℝ} {u u' p Fr Fq S : Nat → Nat → Vec 5 ℝ}
    (hin : ∀ j, j < n → inflow' (π - (q j + q (j + 1)) / 2) = flip e (inflow ((q j + q (j + 1)) / 2))) (hq : ∀ j, j ≤ n → q' j = π - q (n - j))
    (hu : ∀ i, i < m → ∀ j, j < n → u' i j = flip e (u i (n - 1 - j)))
    (h : Found g inflow method z theta m n r q u p Fr Fq S) :
    Found g inflow' method z' theta m n r q' u' (fun i j => flip e (p i (n - 1 - j))) (fun i j => flip e (Fr i (n - 1 - j)))
      (fun i j => -flip e (Fq i (n - 2 - j))) (fun i j => flip e (S i (n - 1 - j))) := by
  have hq0 : ∀ j, j < n → q' j = π - q (n - 1 - j + 1) := fun j hj => by rw [hq j (by omega), show n - 1 - j + 1 = n - j by omega]
  have hq1 : ∀ j, j < n → q' (j + 1) = π - q (n - 1 - j) := fun j hj => by rw [hq (j + 1) (by omega), show n - (j + 1) = n - 1 - j by omega]
  have hmid : ∀ j, j < n → (q' j + q' (j + 1)) / 2 = π - (q (n - 1 - j) + q (n - 1 - j + 1)) / 2 := fun j hj => by
    rw [hq0 j hj, hq1 j hj]
    ring
  constructor
  · intro i hi j hj
    rw [hq0 j hj, hq1 j hj, wedge_mirror, hu i hi j hj, divide_flip, hg.recover, h.primitive i hi (n - 1 - j) (by omega), Outcome.map_ok]
  · intro i hi j hj
    rw [hmid j hj, hin _ (by omega)]
    have hc : ∀ k, k < m + 2 → column (flip e (inflow ((q (n - 1 - j) + q (n - 1 - j + 1)) / 2))) m (fun k => flip e (p k (n - 1 - j))) k
        = flip e (column (inflow ((q (n - 1 - j) + q (n - 1 - j + 1)) / 2)) m (fun k => p k (n - 1 - j)) k) := fun k _ => column_flip _ _ k
    rw [sides_flip method z z' ht (m + 2) _ _ hc i (by omega), hg.radial, h.radial i hi (n - 1 - j) (by omega), Outcome.map_ok]
  · intro i hi j hj
    rw [sides_flip method z' z' ht n (fun k => p i (n - 1 - k)) (fun k => flip e (p i (n - 1 - k))) (fun _ _ => rfl) j (by omega),
      sides_reverse method z z' ht n (p i) j (by omega), hg.polar, h.polar i hi (n - 2 - j) (by omega), Outcome.map_ok]
  · intro i hi j hj
    rw [hmid j hj, hg.source, h.source i hi (n - 1 - j) (by omega), Outcome.map_ok]

theorem update_mirror {e : Fin 5 → ℝ} {dt : ℝ} {q' : Nat → ℝ} {u u' Fr Fq S : Nat → Nat → Vec 5 ℝ} (hq : ∀ j, j ≤ n → q' j = π - q (n - j))
    (hu : ∀ i, i < m → ∀ j, j < n → u' i j = flip e (u i (n - 1 - j))) :
    ∀ i, i < m → ∀ j, j < n → update dt n r q' u' (fun i j => flip e (Fr i (n - 1 - j))) (fun i j => -flip e (Fq i (n - 2 - j)))
        (fun i j => flip e (S i (n - 1 - j))) i j = flip e (update dt n r q u Fr Fq S i (n - 1 - j)) := by
  intro i hi j hj
  have hq0 : q' j = π - q (n - 1 - j + 1) := by rw [hq j (by omega), show n - 1 - j + 1 = n - j by omega]
  have hq1 : q' (j + 1) = π - q (n - 1 - j) := by rw [hq (j + 1) (by omega), show n - (j + 1) = n - 1 - j by omega]
  have hG : ∀ k, k ≤ n → (if k = 0 ∨ k = n then (0 : Vec 5 ℝ) else -flip e (Fq i (n - 2 - (k - 1))))
      = -flip e (if n - k = 0 ∨ n - k = n then 0 else Fq i (n - k - 1)) := by
    intro k hk
    by_cases h0 : k = 0 ∨ k = n
    · rw [if_pos h0, if_pos (by omega)]
      funext a
      simp [flip]
    · rw [if_neg h0, if_neg (by omega), show n - 2 - (k - 1) = n - k - 1 by omega]
  funext a
  unfold update
  dsimp only
  rw [hG j (by omega), hG (j + 1) (by omega), hq0, hq1, wedge_mirror, zone_mirror, zone_mirror, cone_mirror, cone_mirror, hu i hi j hj,
    show n - (j + 1) = n - 1 - j by omega, show n - j = n - 1 - j + 1 by omega]
  simp only [flip, Pi.neg_apply]
  ring

theorem found_flip {g : Gas} {e : Fin 5 → ℝ} (hg : g.Flips e) {inflow inflow' : ℝ → Vec 5 ℝ} {method : Int} {z : Fin 5 → Bool}
    (z' : Fin 5 → Bool) {theta : ℝ} (ht : 0 ≤ theta) {u u' p Fr Fq S : Nat → Nat → Vec 5 ℝ}
    (hin : ∀ j, j < n → inflow' ((q j + q (j + 1)) / 2) = flip e (inflow ((q j + q (j + 1)) / 2))) (hu : ∀ i, i < m → ∀ j, j < n → u' i j = flip e (u i j))
    (h : Found g inflow method z theta m n r q u p Fr Fq S) :
    Found g inflow' method z' theta m n r q u' (fun i j => flip e (p i j)) (fun i j => flip e (Fr i j)) (fun i j => flip e (Fq i j))
      (fun i j => flip e (S i j)) := by
  constructor
  · intro i hi j hj
    rw [hu i hi j hj, divide_flip, hg.recover, h.primitive i hi j hj, Outcome.map_ok]
  · intro i hi j hj
    rw [hin j hj, sides_flip method z z' ht (m + 2) _ _ (fun k _ => column_flip _ _ k) i (by omega), hg.riemann, h.radial i hi j hj, Outcome.map_ok]
  · intro i hi j hj
    rw [sides_flip method z z' ht n (p i) (fun k => flip e (p i k)) (fun _ _ => rfl) j (by omega), hg.riemann, h.polar i hi j hj, Outcome.map_ok]
  · intro i hi j hj
    rw [hg.source, h.source i hi j hj, Outcome.map_ok]

theorem update_flip {e : Fin 5 → ℝ} {dt : ℝ} {u u' Fr Fq S : Nat → Nat → Vec 5 ℝ} (hu : ∀ i, i < m → ∀ j, j < n → u' i j = flip e (u i j)) :
    ∀ i, i < m → ∀ j, j < n → update dt n r q u' (fun i j => flip e (Fr i j)) (fun i j => flip e (Fq i j)) (fun i j => flip e (S i j)) i j
      = flip e (update dt n r q u Fr Fq S i j) := by
  intro i hi j hj
  have hG : ∀ k, (if k = 0 ∨ k = n then (0 : Vec 5 ℝ) else flip e (Fq i (k - 1))) = flip e (if k = 0 ∨ k = n then 0 else Fq i (k - 1)) := by
    intro k
    split_ifs
    · funext a
      simp [flip]
    · rfl
  funext a
  unfold update
  dsimp only
  rw [hG j, hG (j + 1), hu i hi j hj]
  simp only [flip]
  ring

/-! ## The gas of the program -/

/-- A mirror at the equator. -/
def equator : Frame.Axes := ⟨![![1, 0, 0], ![0, -1, 0], ![0, 0, 1]], fun i j => by fin_cases i <;> fin_cases j <;> simp⟩

/-- A mirror at a meridian. -/
def meridian : Frame.Axes := ⟨![![1, 0, 0], ![0, 1, 0], ![0, 0, -1]], fun i j => by fin_cases i <;> fin_cases j <;> simp⟩

theorem equator_state (P : Vec 5 ℝ) : equator.state P = flip ![1, 1, -1, 1, 1] P := by
  rw [← mirror_eq]
  unfold Frame.Axes.state Frame.Axes.turn equator mirror
  simp

theorem meridian_state (P : Vec 5 ℝ) : meridian.state P = flip ![1, 1, 1, -1, 1] P := by
  rw [← counter_eq]
  unfold Frame.Axes.state Frame.Axes.turn meridian counter
  simp

theorem equator_radial : equator.normal ⟨1, 0, 0⟩ = ⟨1, 0, 0⟩ := by
  unfold Frame.Axes.normal Frame.Axes.turn equator
  simp

theorem equator_polar : equator.normal ⟨0, 1, 0⟩ = Srhd.opposite ⟨0, 1, 0⟩ := by
  unfold Frame.Axes.normal Frame.Axes.turn equator Srhd.opposite
  simp

theorem meridian_normal (a : Fin 2) : meridian.normal (if a = 0 then ⟨1, 0, 0⟩ else ⟨0, 1, 0⟩) = if a = 0 then ⟨1, 0, 0⟩ else ⟨0, 1, 0⟩ := by
  unfold Frame.Axes.normal Frame.Axes.turn meridian
  split_ifs <;> simp

theorem northSouth (T : ℝ) : (srhd T).NorthSouth ![1, 1, -1, 1, 1] := by
  have w0 : ∀ P, Srhd.wavespeeds (equator.state P) ⟨1, 0, 0⟩ (4 / 3) = Srhd.wavespeeds P ⟨1, 0, 0⟩ (4 / 3) := fun P => by
    have := (Frame.srhd_axes equator P P P ⟨1, 0, 0⟩ (4 / 3) T).2.2.1
    rwa [equator_radial] at this
  have h0 : ∀ l r, Srhd.hlle (equator.state l) (equator.state r) ⟨1, 0, 0⟩ (4 / 3) = equator.state (Srhd.hlle l r ⟨1, 0, 0⟩ (4 / 3)) := fun l r => by
    have := (Frame.srhd_axes equator l r l ⟨1, 0, 0⟩ (4 / 3) T).2.2.2.1
    rwa [equator_radial] at this
  have w1 : ∀ P, Srhd.wavespeeds (equator.state P) ⟨0, 1, 0⟩ (4 / 3) = (-(Srhd.wavespeeds P ⟨0, 1, 0⟩ (4 / 3)).2, -(Srhd.wavespeeds P ⟨0, 1, 0⟩ (4 / 3)).1) := fun P => by
    have := (Frame.srhd_axes equator P P P ⟨0, 1, 0⟩ (4 / 3) T).2.2.1
    rw [equator_polar, Srhd.wavespeeds_opposite] at this
    rw [← this, neg_neg, neg_neg]
  have h1 : ∀ l r, Srhd.hlle (equator.state r) (equator.state l) ⟨0, 1, 0⟩ (4 / 3) = -equator.state (Srhd.hlle l r ⟨0, 1, 0⟩ (4 / 3)) := fun l r => by
    have := (Frame.srhd_axes equator l r l ⟨0, 1, 0⟩ (4 / 3) T).2.2.2.1
    rw [equator_polar, Srhd.hlle_opposite] at this
    rw [← this, neg_neg]
  refine ⟨fun U => ?_, fun l r => ?_, fun l r => ?_, fun P x y => ?_⟩
  · simp only [← equator_state, ← funext equator_state]
    exact (Frame.srhd_axes equator U U U ⟨1, 0, 0⟩ (4 / 3) T).2.2.2.2
  · simp only [← funext equator_state]
    unfold srhd
    dsimp only
    rw [if_pos rfl, w0, w0, h0]
    by_cases h : 0 < l 0 ∧ 0 ≤ l 4 ∧ 0 < r 0 ∧ 0 ≤ r 4 ∧ min 0 (min (Srhd.wavespeeds l ⟨1, 0, 0⟩ (4 / 3)).1 (Srhd.wavespeeds r ⟨1, 0, 0⟩ (4 / 3)).1)
        ≠ max 0 (max (Srhd.wavespeeds l ⟨1, 0, 0⟩ (4 / 3)).2 (Srhd.wavespeeds r ⟨1, 0, 0⟩ (4 / 3)).2)
    · exact (if_pos h).trans (by rw [if_pos h]; rfl)
    · exact (if_neg h).trans (by rw [if_neg h]; rfl)
  · simp only [← funext equator_state]
    unfold srhd
    dsimp only
    have hv : (if (1 : Fin 2) = 0 then (⟨1, 0, 0⟩ : UnitVec ℝ) else ⟨0, 1, 0⟩) = ⟨0, 1, 0⟩ := if_neg (by decide)
    rw [hv, w1, w1, h1]
    dsimp only
    rw [Srhd.max_neg_neg3, Srhd.min_neg_neg3, min_comm (Srhd.wavespeeds r _ _).1, max_comm (Srhd.wavespeeds r _ _).2]
    by_cases h : 0 < l 0 ∧ 0 ≤ l 4 ∧ 0 < r 0 ∧ 0 ≤ r 4 ∧ min 0 (min (Srhd.wavespeeds l ⟨0, 1, 0⟩ (4 / 3)).1 (Srhd.wavespeeds r ⟨0, 1, 0⟩ (4 / 3)).1)
        ≠ max 0 (max (Srhd.wavespeeds l ⟨0, 1, 0⟩ (4 / 3)).2 (Srhd.wavespeeds r ⟨0, 1, 0⟩ (4 / 3)).2)
    · refine (if_pos ?_).trans (by rw [if_pos h]; rfl)
      exact ⟨h.2.2.1, h.2.2.2.1, h.1, h.2.1, fun e => h.2.2.2.2 (neg_injective e).symm⟩
    · refine (if_neg ?_).trans (by rw [if_neg h]; rfl)
      exact fun h' => h ⟨h'.2.2.1, h'.2.2.2.1, h'.1, h'.2.1, fun e => h'.2.2.2.2 (by rw [e])⟩
  · simp only [← funext equator_state]
    unfold srhd
    dsimp only
    split_ifs
    · rfl
    · rw [Outcome.map_ok, show π / 2 - (π - y) = -(π / 2 - y) by ring, Real.tan_neg]
      congr 1
      rw [equator_state, equator_state, ← mirror_eq, ← mirror_eq]
      funext a
      revert a
      refine Srhd.forall5 ?_ ?_ ?_ ?_ ?_ <;>
        simp only [mirror, Srhd.sphericalSource, Srhd.enthalpyDensity, Srhd.at0, Srhd.at1, Srhd.at2, Srhd.at3, Srhd.at4] <;> ring

theorem flips (T : ℝ) : (srhd T).Flips ![1, 1, 1, -1, 1] := by
  have w : ∀ (a : Fin 2) P, Srhd.wavespeeds (meridian.state P) (if a = 0 then ⟨1, 0, 0⟩ else ⟨0, 1, 0⟩) (4 / 3)
      = Srhd.wavespeeds P (if a = 0 then ⟨1, 0, 0⟩ else ⟨0, 1, 0⟩) (4 / 3) := fun a P => by
    have := (Frame.srhd_axes meridian P P P (if a = 0 then ⟨1, 0, 0⟩ else ⟨0, 1, 0⟩) (4 / 3) T).2.2.1
    rwa [meridian_normal] at this
  have h : ∀ (a : Fin 2) l r, Srhd.hlle (meridian.state l) (meridian.state r) (if a = 0 then ⟨1, 0, 0⟩ else ⟨0, 1, 0⟩) (4 / 3)
      = meridian.state (Srhd.hlle l r (if a = 0 then ⟨1, 0, 0⟩ else ⟨0, 1, 0⟩) (4 / 3)) := fun a l r => by
    have := (Frame.srhd_axes meridian l r l (if a = 0 then ⟨1, 0, 0⟩ else ⟨0, 1, 0⟩) (4 / 3) T).2.2.2.1
    rwa [meridian_normal] at this
  refine ⟨fun U => ?_, fun a l r => ?_, fun P x y => ?_⟩
  · simp only [← funext meridian_state]
    exact (Frame.srhd_axes meridian U U U ⟨1, 0, 0⟩ (4 / 3) T).2.2.2.2
  · simp only [← funext meridian_state]
    unfold srhd
    dsimp only
    rw [w, w, h]
    generalize (if a = 0 then (⟨1, 0, 0⟩ : UnitVec ℝ) else ⟨0, 1, 0⟩) = v
    by_cases h : 0 < l 0 ∧ 0 ≤ l 4 ∧ 0 < r 0 ∧ 0 ≤ r 4 ∧ min 0 (min (Srhd.wavespeeds l v (4 / 3)).1 (Srhd.wavespeeds r v (4 / 3)).1)
        ≠ max 0 (max (Srhd.wavespeeds l v (4 / 3)).2 (Srhd.wavespeeds r v (4 / 3)).2)
    · exact (if_pos h).trans (by rw [if_pos h]; rfl)
    · exact (if_neg h).trans (by rw [if_neg h]; rfl)
  · simp only [← funext meridian_state]
    unfold srhd
    dsimp only
    split_ifs
    · rfl
    · rw [Outcome.map_ok]
      congr 1
      rw [meridian_state, meridian_state, ← counter_eq, ← counter_eq]
      funext a
      revert a
      refine Srhd.forall5 ?_ ?_ ?_ ?_ ?_ <;>
        simp only [counter, Srhd.sphericalSource, Srhd.enthalpyDensity, Srhd.at0, Srhd.at1, Srhd.at2, Srhd.at3, Srhd.at4] <;> ring

/-! ## A step -/

/-- A step of two programs: if one stage of the first ends, the same stage of the second does, with contents that are related to the first's in the same way as before. -/
theorem step_related {g : Gas} {inflow inflow' : ℝ → ℝ → Vec 5 ℝ} {method : Int} {z z' : Fin 5 → Bool} {theta cfl : ℝ} {rk : Int} {s s' t : Solution}
    (hm : 1 ≤ m) (hn : 2 ≤ n) (hn3 : method = 1 ∨ 3 ≤ n) (hmn : (m + 2) * (n + 1) < 2 ^ 31) {q' : Nat → ℝ} {u u' : Nat → Nat → Vec 5 ℝ}
    (hr : Line s.radial (m + 1) r) (hq : Line s.polar (n + 1) q) (hu : Grid s.conserved m n u)
    (hr' : Line s'.radial (m + 1) r) (hq' : Line s'.polar (n + 1) q') (hu' : Grid s'.conserved m n u') (htime : s'.time = s.time)
    (hwedge : (∀ i, i < m → ∀ j, j < n → wedge (r i) (r (i + 1)) (q j) (q (j + 1)) ≠ 0) →
      ∀ i, i < m → ∀ j, j < n → wedge (r i) (r (i + 1)) (q' j) (q' (j + 1)) ≠ 0)
    (rel : (Nat → Nat → Vec 5 ℝ) → Nat → Nat → Vec 5 ℝ) (hrel : ∀ i, i < m → ∀ j, j < n → u' i j = rel u i j)
    (hadd : ∀ u1 u2 i j, i < m → j < n → rel (fun i j => scale (u1 i j) (1 / 2) + scale (u2 i j) (1 / 2)) i j
      = scale (rel u1 i j) (1 / 2) + scale (rel u2 i j) (1 / 2))
    (hfound : ∀ u u' p Fr Fq S, (∀ i, i < m → ∀ j, j < n → u' i j = rel u i j) → Found g (inflow s.time) method z theta m n r q u p Fr Fq S →
      ∃ p' Fr' Fq' S', Found g (inflow' s.time) method z' theta m n r q' u' p' Fr' Fq' S' ∧ ∀ dt, ∀ i, i < m → ∀ j, j < n →
        update dt n r q' u' Fr' Fq' S' i j = rel (update dt n r q u Fr Fq S) i j)
    (h : nextSolution g inflow method z theta cfl rk s = .ok t) :
    ∃ t' v v', nextSolution g inflow' method z' theta cfl rk s' = .ok t' ∧ t'.time = t.time ∧ t.radial = s.radial ∧ t'.radial = s'.radial ∧ t.polar = s.polar
      ∧ t'.polar = s'.polar ∧ Grid t.conserved m n v ∧ Grid t'.conserved m n v' ∧ ∀ i, i < m → ∀ j, j < n → v' i j = rel v i j := by
  have b1 : m + 2 ≤ (m + 2) * (n + 1) := Nat.le_mul_of_pos_right _ (by omega)
  have b3 : m * n < 2 ^ 31 := lt_of_le_of_lt (Nat.mul_le_mul (by omega) (by omega)) hmn
  obtain ⟨D, e1, hD⟩ := hr.difference (by omega)
  obtain ⟨D', e1', hD'⟩ := hr'.difference (by omega)
  unfold nextSolution at h ⊢
  rw [e1, Outcome.bind_ok, hD.2 0 (by omega), Outcome.bind_ok] at h
  rw [e1', Outcome.bind_ok, hD'.2 0 (by omega), Outcome.bind_ok]
  dsimp only at h ⊢
  generalize (r (0 + 1) - r 0) * cfl = dt at h ⊢
  have hstage : ∀ (a a' b : Solution) (x x' : Nat → Nat → Vec 5 ℝ), Line a.radial (m + 1) r → Line a.polar (n + 1) q → Grid a.conserved m n x →
      Line a'.radial (m + 1) r → Line a'.polar (n + 1) q' → Grid a'.conserved m n x' → (∀ i, i < m → ∀ j, j < n → x' i j = rel x i j) →
      advance g (inflow s.time) method z theta a dt = .ok b → ∃ b' y y', advance g (inflow' s.time) method z' theta a' dt = .ok b'
        ∧ b.time = a.time + dt ∧ b'.time = a'.time + dt ∧ b.radial = a.radial ∧ b'.radial = a'.radial ∧ b.polar = a.polar ∧ b'.polar = a'.polar
        ∧ Grid b.conserved m n y ∧ Grid b'.conserved m n y' ∧ ∀ i, i < m → ∀ j, j < n → y' i j = rel y i j := by
    intro a a' b x x' ha hb hc ha' hb' hc' hx hadv
    obtain ⟨hme, hV, p, Fr, Fq, S, hF⟩ := found_of_advance g _ method z theta a b dt hm hn hn3 hmn x ha hb hc hadv
    obtain ⟨p', Fr', Fq', S', hF', hup⟩ := hfound x x' p Fr Fq S hx hF
    obtain ⟨c, k1, k2, k3, k4, k5, _⟩ := stage g _ method z theta a dt hme hm hn hn3 hmn x ha hb hc hV p Fr Fq S hF
    obtain ⟨c', l1, l2, l3, l4, l5, _⟩ := stage g _ method z' theta a' dt hme hm hn hn3 hmn x' ha' hb' hc' (hwedge hV) p' Fr' Fq' S' hF'
    rw [k1] at hadv
    injection hadv with hadv
    subst hadv
    exact ⟨c', _, _, l1, k2, l2, k3, l3, k4, l4, k5, l5, hup dt⟩
  rw [htime]
  split_ifs at h ⊢ with h1 h2
  · obtain ⟨t', y, y', k1, k2, k3, k4, k5, k6, k7, k8, k9, k10⟩ := hstage s s' t u u' hr hq hu hr' hq' hu' hrel h
    exact ⟨t', y, y', k1, by rw [k2, k3, htime], k4, k5, k6, k7, k8, k9, k10⟩
  · obtain ⟨s1, a1, h⟩ := Outcome.bind_eq_ok.1 h
    obtain ⟨s2, a2, h⟩ := Outcome.bind_eq_ok.1 h
    obtain ⟨s1', y, y', k1, k2, k3, k4, k5, k6, k7, k8, k9, k10⟩ := hstage s s' s1 u u' hr hq hu hr' hq' hu' hrel a1
    obtain ⟨s2', x, x', l1, l2, l3, l4, l5, l6, l7, l8, l9, l10⟩ := hstage s1 s1' s2 y y' (k4 ▸ hr) (k6 ▸ hq) k8 (k5 ▸ hr') (k7 ▸ hq') k9 k10 a2
    rw [k1, Outcome.bind_ok, l1, Outcome.bind_ok]
    obtain ⟨A, e4, hA⟩ := (hu.map fun x => scale x (1 / 2)).evaluate hm (by omega) b3
    obtain ⟨B, e5, hB⟩ := (l8.map fun x => scale x (1 / 2)).evaluate hm (by omega) b3
    obtain ⟨C, e6, hC⟩ := hA.binaryOp hB (· + ·)
    obtain ⟨E, e7, hE⟩ := hC.evaluate hm (by omega) b3
    obtain ⟨A', f4, hA'⟩ := (hu'.map fun x => scale x (1 / 2)).evaluate hm (by omega) b3
    obtain ⟨B', f5, hB'⟩ := (l9.map fun x => scale x (1 / 2)).evaluate hm (by omega) b3
    obtain ⟨C', f6, hC'⟩ := hA'.binaryOp hB' (· + ·)
    obtain ⟨E', f7, hE'⟩ := hC'.evaluate hm (by omega) b3
    rw [e4, Outcome.bind_ok, e5, Outcome.bind_ok, e6, Outcome.bind_ok, e7, Outcome.bind_ok] at h
    injection h with h
    subst h
    refine ⟨⟨s.time * (1 / 2) + s2'.time * (1 / 2), s'.radial, s'.polar, E'⟩, _, _, by rw [f4, Outcome.bind_ok, f5, Outcome.bind_ok, f6, Outcome.bind_ok, f7, Outcome.bind_ok], ?_, rfl, rfl, rfl, rfl, hE, hE', fun i hi j hj => ?_⟩
    · show s.time * (1 / 2) + s2'.time * (1 / 2) = s.time * (1 / 2) + s2.time * (1 / 2)
      rw [l3, l2, k3, k2, htime]
    · rw [hadd _ _ i j hi hj]
      beta_reduce
      rw [hrel i hi j hj, l10 i hi j hj]

/-- **C127, north and south.** Mirrored at the equator, with a mirrored inflow, the program does the mirrored step. -/
theorem step_mirrored (T : ℝ) {inflow inflow' : ℝ → ℝ → Vec 5 ℝ} {method : Int} {z : Fin 5 → Bool} (z' : Fin 5 → Bool) {theta cfl : ℝ} {rk : Int}
    {s s' t : Solution} (ht : 0 ≤ theta) (hm : 1 ≤ m) (hn : 2 ≤ n) (hn3 : method = 1 ∨ 3 ≤ n) (hmn : (m + 2) * (n + 1) < 2 ^ 31)
    {u : Nat → Nat → Vec 5 ℝ} (hr : Line s.radial (m + 1) r) (hq : Line s.polar (n + 1) q) (hu : Grid s.conserved m n u)
    (htime : s'.time = s.time) (hr' : Line s'.radial (m + 1) r) (hq' : Line s'.polar (n + 1) fun j => π - q (n - j))
    (hu' : Grid s'.conserved m n fun i j => mirror (u i (n - 1 - j))) 
    (hin : ∀ j, j < n → inflow' s.time (π - (q j + q (j + 1)) / 2) = mirror (inflow s.time ((q j + q (j + 1)) / 2)))
    (h : nextSolution (srhd T) inflow method z theta cfl rk s = .ok t) :
    ∃ t' v, nextSolution (srhd T) inflow' method z' theta cfl rk s' = .ok t' ∧ t'.time = t.time ∧ t.radial = s.radial ∧ t'.radial = s'.radial
      ∧ t.polar = s.polar ∧ t'.polar = s'.polar ∧ Grid t.conserved m n v ∧ Grid t'.conserved m n fun i j => mirror (v i (n - 1 - j)) := by
  obtain ⟨t', v, v', h1, h2, h3, h4, h5, h6, h7, h8, h9⟩ := step_related (z' := z') (inflow' := inflow') hm hn hn3 hmn hr hq hu hr' hq' hu' htime
    (fun hV i hi j hj => by
      have := hV i hi (n - 1 - j) (by omega)
      rw [show n - j = n - 1 - j + 1 by omega, show n - (j + 1) = n - 1 - j by omega, wedge_mirror]
      exact this)
    (fun u i j => flip ![1, 1, -1, 1, 1] (u i (n - 1 - j))) (fun i hi j hj => mirror_eq _)
    (fun u1 u2 i j hi hj => by
      funext a
      simp only [flip, scale, Pi.add_apply]
      ring)
    (fun u u' p Fr Fq S hrel hF => ⟨_, _, _, _, found_mirror (northSouth T) z' ht (fun j hj => (hin j hj).trans (mirror_eq _)) (fun _ _ => rfl) hrel hF,
      fun dt => update_mirror (fun _ _ => rfl) hrel⟩) h
  exact ⟨t', v, h1, h2, h3, h4, h5, h6, h7, h8.congr rfl rfl fun i hi j hj => (h9 i hi j hj).trans (mirror_eq _).symm⟩

/-- **C127, rotation.** With the sense of rotation reversed, in the gas and in the inflow, the program does the reversed step. -/
theorem step_counter (T : ℝ) {inflow inflow' : ℝ → ℝ → Vec 5 ℝ} {method : Int} {z : Fin 5 → Bool} (z' : Fin 5 → Bool) {theta cfl : ℝ} {rk : Int}
    {s s' t : Solution} (ht : 0 ≤ theta) (hm : 1 ≤ m) (hn : 2 ≤ n) (hn3 : method = 1 ∨ 3 ≤ n) (hmn : (m + 2) * (n + 1) < 2 ^ 31)
    {u : Nat → Nat → Vec 5 ℝ} (hr : Line s.radial (m + 1) r) (hq : Line s.polar (n + 1) q) (hu : Grid s.conserved m n u)
    (htime : s'.time = s.time) (hr' : Line s'.radial (m + 1) r) (hq' : Line s'.polar (n + 1) q)
    (hu' : Grid s'.conserved m n fun i j => counter (u i j)) 
    (hin : ∀ j, j < n → inflow' s.time ((q j + q (j + 1)) / 2) = counter (inflow s.time ((q j + q (j + 1)) / 2)))
    (h : nextSolution (srhd T) inflow method z theta cfl rk s = .ok t) :
    ∃ t' v, nextSolution (srhd T) inflow' method z' theta cfl rk s' = .ok t' ∧ t'.time = t.time ∧ t.radial = s.radial ∧ t'.radial = s'.radial
      ∧ t.polar = s.polar ∧ t'.polar = s'.polar ∧ Grid t.conserved m n v ∧ Grid t'.conserved m n fun i j => counter (v i j) := by
  obtain ⟨t', v, v', h1, h2, h3, h4, h5, h6, h7, h8, h9⟩ := step_related (z' := z') (inflow' := inflow') hm hn hn3 hmn hr hq hu hr' hq' hu' htime
    (fun hV => hV) (fun u i j => flip ![1, 1, 1, -1, 1] (u i j)) (fun i hi j hj => counter_eq _)
    (fun u1 u2 i j hi hj => by
      funext a
      simp only [flip, scale, Pi.add_apply]
      ring)
    (fun u u' p Fr Fq S hrel hF => ⟨_, _, _, _, found_flip (flips T) z' ht (fun j hj => (hin j hj).trans (counter_eq _)) hrel hF,
      fun dt => update_flip hrel⟩) h
  exact ⟨t', v, h1, h2, h3, h4, h5, h6, h7, h8.congr rfl rfl fun i hi j hj => (h9 i hi j hj).trans (counter_eq _).symm⟩

theorem mirror_mirror (P : Vec 5 ℝ) : mirror (mirror P) = P := by
  funext a
  unfold mirror
  fin_cases a <;> simp

theorem counter_self {P : Vec 5 ℝ} : counter P = P ↔ P 3 = 0 := by
  constructor
  · intro h
    have := congrFun h 3
    have h' : -P 3 = P 3 := this
    linarith
  · intro h
    funext a
    unfold counter
    fin_cases a <;> simp [h]

theorem grid_unique {α : Type} {A : Arr 2 α} {f f' : Nat → Nat → α} (h : Grid A m n f) (h' : Grid A m n f') : ∀ i, i < m → ∀ j, j < n → f i j = f' i j := by
  intro i hi j hj
  have := (h.2.2 i hi j hj).symm.trans (h'.2.2 i hi j hj)
  injection this

/-- **C127.** If the hemispheres are mirror images, and the inflow at the inner boundary is the same in both, they stay so. -/
theorem stays_symmetric (T : ℝ) {inflow : ℝ → ℝ → Vec 5 ℝ} {method : Int} {z : Fin 5 → Bool} {theta cfl : ℝ} {rk : Int} {s t : Solution} (ht : 0 ≤ theta)
    (hm : 1 ≤ m) (hn : 2 ≤ n) (hn3 : method = 1 ∨ 3 ≤ n) (hmn : (m + 2) * (n + 1) < 2 ^ 31) (hs : Symmetric m n s)
    (hin : ∀ q : Nat → ℝ, Line s.polar (n + 1) q → ∀ j, j < n →
      inflow s.time (π - (q j + q (j + 1)) / 2) = mirror (inflow s.time ((q j + q (j + 1)) / 2)))
    (h : nextSolution (srhd T) inflow method z theta cfl rk s = .ok t) : t.radial = s.radial ∧ t.polar = s.polar ∧ Symmetric m n t := by
  obtain ⟨r, q, u, hr, hq, hu, hqq, huu⟩ := hs
  have hq' : Line s.polar (n + 1) fun j => π - q (n - j) := by
    refine ⟨hq.1, fun j hj => ?_⟩
    beta_reduce
    rw [hq.2 j hj, hqq j (by omega), sub_sub_cancel]
  have hu' : Grid s.conserved m n fun i j => mirror (u i (n - 1 - j)) := hu.congr rfl rfl fun i hi j hj => by
    rw [huu i hi j hj, mirror_mirror]
  obtain ⟨t', v, h1, h2, h3, h4, h5, h6, h7, h8⟩ := step_mirrored T z ht hm hn hn3 hmn hr hq hu rfl hr hq' hu' (hin q hq) h
  rw [h] at h1
  injection h1 with h1
  subst h1
  refine ⟨h3, h5, r, q, v, h3 ▸ hr, h5 ▸ hq, h7, hqq, fun i hi j hj => ?_⟩
  have := grid_unique h7 h8 i hi (n - 1 - j) (by omega)
  rw [this, show n - 1 - (n - 1 - j) = j by omega]

/-- **C127.** If nothing turns around the axis, in the gas or the inflow, nothing will. -/
theorem stays_unturned (T : ℝ) {inflow : ℝ → ℝ → Vec 5 ℝ} {method : Int} {z : Fin 5 → Bool} {theta cfl : ℝ} {rk : Int} {s t : Solution} (ht : 0 ≤ theta)
    (hm : 1 ≤ m) (hn : 2 ≤ n) (hn3 : method = 1 ∨ 3 ≤ n) (hmn : (m + 2) * (n + 1) < 2 ^ 31) (hs : Unturned m n s)
    (hin : ∀ q : Nat → ℝ, Line s.polar (n + 1) q → ∀ j, j < n → inflow s.time ((q j + q (j + 1)) / 2) 3 = 0)
    (h : nextSolution (srhd T) inflow method z theta cfl rk s = .ok t) : t.radial = s.radial ∧ t.polar = s.polar ∧ Unturned m n t := by
  obtain ⟨r, q, u, hr, hq, hu, huu⟩ := hs
  have hu' : Grid s.conserved m n fun i j => counter (u i j) := hu.congr rfl rfl fun i hi j hj => (counter_self.2 (huu i hi j hj)).symm
  obtain ⟨t', v, h1, h2, h3, h4, h5, h6, h7, h8⟩ := step_counter T z ht hm hn hn3 hmn hr hq hu rfl hr hq hu'
    (fun j hj => (counter_self.2 (hin q hq j hj)).symm) h
  rw [h] at h1
  injection h1 with h1
  subst h1
  exact ⟨h3, h5, r, q, v, h3 ▸ hr, h5 ▸ hq, h7, fun i hi j hj => counter_self.1 (grid_unique h7 h8 i hi j hj).symm⟩

/-! ## Runs -/

/-- The inflow of the program comes from two jets, one to each pole. -/
theorem nozzle_symmetric {jet : JetNozzle.Model} (hj : jet.Sensible) (hE : 0 < jet.Ej) {density : ℝ} (hd : 0 < density) (time t : ℝ) {x : ℝ} (h0 : 0 ≤ x) (h1 : x ≤ π) :
    nozzle jet density time t (π - x) = mirror (nozzle jet density time t x) ∧ nozzle jet density time t x 3 = 0 := by
  obtain ⟨d, v, e1, e2, _⟩ := JetNozzle.inflow_symmetric hj hd hE (t * time) h0 h1
  unfold nozzle
  rw [e1, e2]
  refine ⟨?_, rfl⟩
  funext a
  unfold mirror
  fin_cases a <;> simp

/-- **C127.** From the initial state of the program, and with its jets, the hemispheres are mirror images and nothing turns around the axis, after any number of
steps. -/
theorem run_symmetric {c : RunConfig} (h : c.Sensible) {jet : JetNozzle.Model} (hjet : jet.Sensible) (hE : 0 < jet.Ej) {density : ℝ} (hd : 0 < density)
    (time T : ℝ) {method : Int} (z : Nat → Fin 5 → Bool) {theta cfl : ℝ} {rk : Int} (ht : 0 ≤ theta) (hcn : (n : Int) = c.nr)
    (hcm : (m : Int) = ⌊c.numDecades * c.nr⌋) (hn : 2 ≤ n) (hn3 : method = 1 ∨ 3 ≤ n) (hmn : (m + 2) * (n + 1) < 2 ^ 31) (sol : Nat → Solution)
    (hstart : newSolution c = .ok (sol 0)) (N : Nat)
    (hsteps : ∀ k, k < N → nextSolution (srhd T) (nozzle jet density time) method (z k) theta cfl rk (sol k) = .ok (sol (k + 1))) :
    Symmetric m n (sol N) ∧ Unturned m n (sol N) := by
  obtain ⟨s, m', n', r, q, u, P, kd, e, _, hr, hq, hu, hn', hm', hm1, _, hqv, hk, hcell⟩ := new_solution h
  obtain rfl : n' = n := by omega
  obtain rfl : m' = m := by omega
  rw [hstart] at e
  injection e with e
  have hnR : (n' : ℝ) ≠ 0 := by
    have : (0 : ℝ) < n' := by exact_mod_cast (by omega : 0 < n')
    exact this.ne'
  have hmid : ∀ q' : Nat → ℝ, Line s.polar (n' + 1) q' → ∀ j, j < n' → 0 ≤ (q' j + q' (j + 1)) / 2 ∧ (q' j + q' (j + 1)) / 2 ≤ π := by
    intro q' hq' j hj
    have hval : ∀ k, k ≤ n' → 0 ≤ q' k ∧ q' k ≤ π := by
      intro k hk
      have e := (hq'.2 k (by omega)).symm.trans (hq.2 k (by omega))
      injection e with e
      rw [e, hqv k hk]
      have hkn : (k : ℝ) ≤ n' := by exact_mod_cast hk
      have hk0 : (0 : ℝ) ≤ k := Nat.cast_nonneg k
      have hn0 : (0 : ℝ) < n' := by exact_mod_cast (by omega : 0 < n')
      have := Real.pi_pos
      refine ⟨by positivity, ?_⟩
      rw [div_le_iff₀ hn0]
      exact mul_le_mul_of_nonneg_left hkn this.le
    have h1 := hval j (by omega)
    have h2 := hval (j + 1) (by omega)
    constructor <;> linarith [h1.1, h1.2, h2.1, h2.2]
  have key : ∀ k, k ≤ N → (sol k).polar = s.polar ∧ Symmetric m' n' (sol k) ∧ Unturned m' n' (sol k) := by
    intro k
    induction k with
    | zero =>
      intro _
      rw [e]
      have hwedge : ∀ i j, wedge (r i) (r (i + 1)) (q (n' - 1 - j)) (q (n' - 1 - j + 1)) = wedge (r i) (r (i + 1)) (q j) (q (j + 1)) ∨ ¬j < n' := by
        intro i j
        by_cases hj : j < n'
        · left
          have hqq : ∀ j, j ≤ n' → q (n' - j) = π - q j := by
            intro j hj
            rw [hqv _ (by omega), hqv j hj, Nat.cast_sub hj]
            field_simp
          rw [show n' - 1 - j = n' - (j + 1) by omega, show n' - (j + 1) + 1 = n' - j by omega, hqq j (by omega), hqq (j + 1) (by omega), wedge_mirror]
        · exact .inr hj
      refine ⟨rfl, ⟨r, q, u, hr, hq, hu, fun j hj => ?_, fun i hi j hj => ?_⟩, r, q, u, hr, hq, hu, fun i hi j hj => ?_⟩
      · rw [hqv _ (by omega), hqv j hj, Nat.cast_sub hj]
        field_simp
      · obtain ⟨_, _, a3, a4, a5, a6, a7, a8⟩ := hcell i hi j hj
        obtain ⟨_, _, b3, b4, b5, b6, b7, b8⟩ := hcell i hi (n' - 1 - j) (by omega)
        have hk0 : kd ≠ 0 := by
          rw [hk]
          have := h.r0
          have := h.mass
          have := solarMass_pos
          positivity
        have c0 : P i (n' - 1 - j) 0 = P i j 0 := by
          have := b4.symm.trans a4
          injection this with this
          exact mul_right_cancel₀ hk0 this
        have c1 : P i (n' - 1 - j) 1 = P i j 1 := by
          have := b5.symm.trans a5
          injection this
        have cP : P i (n' - 1 - j) = P i j := by
          funext a
          revert a
          refine Srhd.forall5 c0 c1 (by rw [b6, a6]) (by rw [b7, a7]) (by rw [b8, a8, c0])
        rw [b3, a3, cP, (hwedge i j).resolve_right (not_not.2 hj)]
        funext a
        revert a
        refine Srhd.forall5 rfl rfl ?_ rfl rfl
        show _ = -(Srhd.toConserved (P i j) (4 / 3) 2 * _)
        have : Srhd.toConserved (P i j) (4 / 3) 2 = 0 := by
          simp only [Srhd.toConserved, Srhd.at2, a6, mul_zero, zero_mul]
        rw [this, zero_mul, neg_zero]
      · obtain ⟨_, _, a3, _, _, _, a7, _⟩ := hcell i hi j hj
        rw [a3]
        show Srhd.toConserved (P i j) (4 / 3) 3 * _ = 0
        have : Srhd.toConserved (P i j) (4 / 3) 3 = 0 := by
          simp only [Srhd.toConserved, Srhd.at3, a7, mul_zero, zero_mul]
        rw [this, zero_mul]
    | succ k ih =>
      intro hk
      obtain ⟨i1, i2, i3⟩ := ih (by omega)
      obtain ⟨_, j2, j3⟩ := stays_symmetric T ht hm1 hn hn3 hmn i2 (fun q' hq' j hj => by
        rw [i1] at hq'
        obtain ⟨k1, k2⟩ := hmid q' hq' j hj
        exact (nozzle_symmetric hjet hE hd time _ k1 k2).1) (hsteps k (by omega))
      obtain ⟨_, _, l3⟩ := stays_unturned T ht hm1 hn hn3 hmn i3 (fun q' hq' j hj => by
        rw [i1] at hq'
        obtain ⟨k1, k2⟩ := hmid q' hq' j hj
        exact (nozzle_symmetric hjet hE hd time _ k1 k2).2) (hsteps k (by omega))
      exact ⟨j2.trans i1, j3, l3⟩
  exact (key N le_rfl).2

/-! ## Examples -/

namespace Example

/-- The gas at rest of C91, on a grid of three cells from pole to pole. -/
noncomputable def start : Solution := ⟨0, ⟨fun _ => 3, fun i => .ok (radius (i 0))⟩, ⟨fun _ => 4, fun i => .ok (angle (i 0))⟩, ⟨![2, 3], fun i => .ok fun a =>
  Srhd.toConserved rest (4 / 3) a * wedge (radius (i 0)) (radius (i 0 + 1)) (angle (i 1)) (angle (i 1 + 1))⟩⟩

theorem start_steps (z : Fin 5 → Bool) : ∃ t, nextSolution (srhd 0) (fun _ _ => rest) 2 z (6 / 5) (2 / 5) 1 start = .ok t := by
  obtain ⟨t, _, _, _, h, _⟩ := budget_first_order (m := 2) (n := 3) (r := radius) (q := angle) 0 (fun _ _ => rest) 2 z (6 / 5) (2 / 5) start
      (Or.inr rfl) (by omega) (by omega) (Or.inr (by omega)) (by norm_num) _ ⟨rfl, fun _ _ => rfl⟩ ⟨rfl, fun _ _ => rfl⟩ ⟨rfl, rfl, fun _ _ _ _ => rfl⟩
      (fun i _ j hj => (wedge_pos i j hj).ne') _ _ _ _ (rest_found 2 z (6 / 5))
  exact ⟨t, h⟩

theorem rest_mirror : mirror rest = rest := by
  funext a
  unfold mirror rest
  fin_cases a <;> simp

theorem rest_conserved_mirror : mirror (Srhd.toConserved rest (4 / 3)) = Srhd.toConserved rest (4 / 3) := by
  funext a
  revert a
  refine Srhd.forall5 rfl rfl ?_ rfl rfl
  show -Srhd.toConserved rest (4 / 3) 2 = _
  simp [Srhd.toConserved, rest]

theorem start_symmetric : Symmetric 2 3 start := by
  have hq : ∀ j, j ≤ 3 → angle (3 - j) = π - angle j := by
    intro j hj
    unfold angle
    rw [Nat.cast_sub hj]
    push_cast
    ring
  refine ⟨radius, angle, _, ⟨rfl, fun _ _ => rfl⟩, ⟨rfl, fun _ _ => rfl⟩, ⟨rfl, rfl, fun _ _ _ _ => rfl⟩, hq, fun i hi j hj => ?_⟩
  show (fun a => Srhd.toConserved rest (4 / 3) a * wedge (radius i) (radius (i + 1)) (angle (3 - 1 - j)) (angle (3 - 1 - j + 1)))
    = mirror fun a => Srhd.toConserved rest (4 / 3) a * wedge (radius i) (radius (i + 1)) (angle j) (angle (j + 1))
  rw [show 3 - 1 - j = 3 - (j + 1) by omega, show 3 - (j + 1) + 1 = 3 - j by omega, hq j (by omega), hq (j + 1) (by omega), wedge_mirror, mirror_eq]
  funext a
  have := congrFun rest_conserved_mirror a
  rw [mirror_eq] at this
  unfold flip at this ⊢
  rw [← mul_assoc, this]

/-- The hypotheses of `stays_symmetric`, and with it of `step_mirrored`, can be met. -/
example (z : Fin 5 → Bool) : ∃ t, nextSolution (srhd 0) (fun _ _ => rest) 2 z (6 / 5) (2 / 5) 1 start = .ok t ∧ Symmetric 2 3 t := by
  obtain ⟨t, h⟩ := start_steps z
  exact ⟨t, h, (stays_symmetric 0 (by norm_num) (by norm_num) (by norm_num) (.inr le_rfl) (by norm_num) start_symmetric
    (fun _ _ _ _ => rest_mirror.symm) h).2.2⟩

/-- The same for `stays_unturned` and `step_counter`. -/
example (z : Fin 5 → Bool) : ∃ t, nextSolution (srhd 0) (fun _ _ => rest) 2 z (6 / 5) (2 / 5) 1 start = .ok t ∧ Unturned 2 3 t := by
  obtain ⟨t, h⟩ := start_steps z
  refine ⟨t, h, (stays_unturned (m := 2) (n := 3) 0 (by norm_num) (by norm_num) (by norm_num) (.inr le_rfl) (by norm_num)
    ⟨radius, angle, _, ⟨rfl, fun _ _ => rfl⟩, ⟨rfl, fun _ _ => rfl⟩, ⟨rfl, rfl, fun _ _ _ _ => rfl⟩, fun i hi j hj => ?_⟩ (fun _ _ _ _ => rfl) h).2.2⟩
  show Srhd.toConserved rest (4 / 3) 3 * _ = 0
  simp [Srhd.toConserved, rest]

/-- Gas that moves to the north, seen in the mirror. -/
example : mirror ![1, 2, -3, 4, 5] = ![1, 2, 3, 4, 5] ∧ counter ![1, 2, -3, 4, 5] = ![1, 2, -3, -4, 5] := by
  constructor <;> funext a <;> fin_cases a <;> simp [mirror, counter]

/-- The jets of the default configuration. -/
example : nozzle JetNozzle.Model.default 7 3 2 (π - 1) = mirror (nozzle JetNozzle.Model.default 7 3 2 1) :=
  (nozzle_symmetric JetNozzle.default_sensible (by norm_num [JetNozzle.Model.default]) (by norm_num) 3 2 zero_le_one (by linarith [Real.two_le_pi])).1

end Example

end Verif.Cloud
