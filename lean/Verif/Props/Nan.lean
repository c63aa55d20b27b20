import Verif.Model.Nan
import Verif.Props.SrhdRecover

/-!
# C132: not-a-number and impossible states
-/

namespace Verif.Nan

open Classical

section
variable {F : Type} [Ieee F]

open Ieee

theorem least_nan {a b : F} (h : isNan a) : isNan (least a b) := by
  unfold least
  rw [if_neg (lt_nan (.inr h))]
  exact h

theorem pass_W {U : Vec F} {gm p : F} (h : isNan (pass U gm p).W) : isNan (pass U gm p).f :=
  sub_nan (.inl (mul_nan (.inl (mul_nan (.inl (div_nan (.inr h)))))))

theorem pass_density {U : Vec F} {gm p : F} (h : isNan (U 0 / (pass U gm p).W)) : isNan (pass U gm p).f :=
  sub_nan (.inl (mul_nan (.inl (mul_nan (.inl h)))))

theorem pass_v2 {U : Vec F} {gm p : F} (h : isNan (U 1 * U 1 + U 2 * U 2 + U 3 * U 3) ∨ isNan (sq (U 4 + U 0 + p))) : isNan (pass U gm p).f :=
  pass_W (sqrt_nan (div_nan (.inr (sub_nan (.inr (least_nan (div_nan h)))))))

/-- A component that is NaN makes the function NaN whose root is sought. -/
theorem pass_nan {U : Vec F} (a : Fin 5) (h : isNan (U a)) (gm p : F) : isNan (pass U gm p).f := by
  fin_cases a
  · exact pass_density (div_nan (.inl h))
  · exact pass_v2 (.inl (add_nan (.inl (add_nan (.inl (mul_nan (.inl h)))))))
  · exact pass_v2 (.inl (add_nan (.inl (add_nan (.inr (mul_nan (.inl h)))))))
  · exact pass_v2 (.inl (add_nan (.inr (mul_nan (.inl h)))))
  · exact pass_v2 (.inr (sq_nan (add_nan (.inl (add_nan (.inl h))))))

theorem loop_nan {U : Vec F} {gm : F} (h : ∀ p, isNan (pass U gm p).f) (n : ℕ) (p : F) : (loop U gm n p).1 = false := by
  induction n generalizing p with
  | zero => rfl
  | succ n ih =>
    unfold loop
    dsimp only
    rw [if_neg (lt_nan (.inl (abs_nan (h p))))]
    exact ih _

theorem loop_found {U : Vec F} {gm : F} {n : ℕ} {p : F} (h : (loop U gm n p).1 = true) :
    ∃ p', ¬isNan (pass U gm p').f ∧ (loop U gm n p).2.2 = (pass U gm p').W := by
  induction n generalizing p with
  | zero => cases h
  | succ n ih =>
    unfold loop at h ⊢
    dsimp only at h ⊢
    split_ifs at h ⊢ with hl
    · exact ⟨p, fun hn => lt_nan (.inl (abs_nan hn)) hl, rfl⟩
    · exact ih h

/-- **C132, relativistic gas.**  A conserved state with a component that is NaN is refused, whatever the other components, the adiabatic index and the temperature floor. -/
theorem recover_refuses_nan {U : Vec F} {a : Fin 5} (h : isNan (U a)) (gm T : F) : recover U gm T = .throws .invalidArgument := by
  unfold recover
  dsimp only
  rw [loop_nan (pass_nan a h gm)]
  unfold finish
  exact if_pos rfl

/-- **C132, relativistic gas.**  The same if the adiabatic index is NaN. -/
theorem recover_refuses_index {gm : F} (h : isNan gm) (U : Vec F) (T : F) : recover U gm T = .throws .invalidArgument := by
  unfold recover
  dsimp only
  rw [loop_nan fun p => sub_nan (.inl (mul_nan (.inr (sub_nan (.inl h)))))]
  unfold finish
  exact if_pos rfl

theorem finish_ok {U P : Vec F} {T p W : F} {found : Bool} (h : finish U T found p W = .ok P) :
    found = true ∧ P 0 = U 0 / W ∧ ¬le (P 0) (lit 0) ∧ ¬le (P 4) (lit 0) := by
  unfold finish at h
  dsimp only at h
  generalize (if lt (lit 0) T then greatest p (T * U 0 / W) else p) = p' at h
  have e : (![U 0 / W, W * U 1 / (U 4 + U 0 + p'), W * U 2 / (U 4 + U 0 + p'), W * U 3 / (U 4 + U 0 + p'), p'] : Vec F) 0 = U 0 / W := rfl
  generalize (![U 0 / W, W * U 1 / (U 4 + U 0 + p'), W * U 2 / (U 4 + U 0 + p'), W * U 3 / (U 4 + U 0 + p'), p'] : Vec F) = Q at h e
  split_ifs at h with h1 h2 h3
  injection h with h
  subst h
  exact ⟨Bool.eq_true_of_not_eq_false h1, e, h2, h3⟩

/-- **C132, relativistic gas, partly.**  Of a state that is returned the density is a number and is not `<= 0`; of the pressure it is known only that it is not `<= 0`.  Missing: that the
pressure and the velocities are numbers, which is not so (`recover_result_violated`). -/
theorem recover_result_partial {U P : Vec F} {gm T : F} (h : recover U gm T = .ok P) :
    ¬isNan (P 0) ∧ ¬le (P 0) (lit 0) ∧ ¬le (P 4) (lit 0) ∧ ∀ a, ¬isNan (U a) := by
  have hU : ∀ a, ¬isNan (U a) := fun a ha => by
    rw [recover_refuses_nan ha] at h
    cases h
  unfold recover at h
  obtain ⟨h1, h2, h3, h4⟩ := finish_ok h
  obtain ⟨p', k1, k2⟩ := loop_found h1
  refine ⟨fun hn => k1 (pass_density ?_), h3, h4, hU⟩
  rw [← k2, ← h2]
  exact hn

/-- **C132, Euler.**  The recovery of `physics_euler.hpp` never refuses, and the temperature floor does not help: a density or energy that is NaN gives a pressure that is NaN. -/
theorem euler_keeps_nan {U : Vec F} (h : isNan (U 0) ∨ isNan (U 4)) (gm T : F) : isNan (eulerRecover U gm T 4) := by
  have hp : isNan ((U 4 - lit (1 / 2) * (U 1 * U 1 + U 2 * U 2 + U 3 * U 3) / U 0) * (gm - lit 1)) := by
    rcases h with h | h
    · exact mul_nan (.inl (sub_nan (.inr (div_nan (.inr h)))))
    · exact mul_nan (.inl (sub_nan (.inl h)))
  show isNan (if _ then _ else _)
  rw [if_neg fun hc => lt_nan (.inl hp) hc.1]
  exact hp

/-- **C132, binary program, partly.**  A solution that is accepted has no density below zero.  Missing: that the densities are numbers (`validate_violated`). -/
theorem validate_partial {blocks : List (List F)} : (∃ r, validate blocks = .ok r) ↔ ∀ b ∈ blocks, ∀ d ∈ b, ¬lt d (lit 0) := by
  unfold validate
  constructor
  · rintro ⟨r, h⟩ b hb d hd hl
    rw [if_pos ⟨b, hb, d, hd, hl⟩] at h
    cases h
  · intro h
    exact ⟨blocks, if_neg fun ⟨b, hb, d, hd, hl⟩ => h b hb d hd hl⟩

/-- **C132, binary program, violated.**  NaN are accepted, in all cells if need be. -/
theorem validate_violated {blocks : List (List F)} (h : ∀ b ∈ blocks, ∀ d ∈ b, isNan d) : validate blocks = .ok blocks :=
  if_neg fun ⟨b, hb, d, hd, hl⟩ => lt_nan (.inl (h b hb d hd)) hl

end

/-! ## The exact arithmetic with special values -/

namespace Ext

theorem add_fin (x y : ℝ) : fin x + fin y = fin (x + y) := rfl
theorem sub_fin (x y : ℝ) : fin x - fin y = fin (x - y) := by
  rw [sub_eq_add_neg]
  rfl
theorem mul_fin (x y : ℝ) : fin x * fin y = fin (x * y) := rfl
theorem div_fin (x : ℝ) {y : ℝ} (h : y ≠ 0) : fin x / fin y = fin (x / y) := if_neg h
theorem sq_fin (x : ℝ) : sq (fin x) = fin (x ^ 2) := by
  rw [pow_two]
  rfl
theorem sqrt_fin {x : ℝ} (h : 0 ≤ x) : sqrt (fin x) = fin (Real.sqrt x) := if_neg (not_lt.2 h)
theorem lit_fin (q : ℚ) : (lit q : Ext) = fin q := rfl
theorem lt_fin (x y : ℝ) : lt (fin x) (fin y) ↔ x < y := Iff.rfl
theorem le_fin (x y : ℝ) : le (fin x) (fin y) ↔ x ≤ y := Iff.rfl
theorem abs_fin (x : ℝ) : abs (fin x) = fin |x| := rfl
theorem least_fin (x y : ℝ) : least (fin x) (fin y) = fin (min x y) := by
  unfold least
  by_cases h : y < x
  · rw [if_pos ((lt_fin _ _).2 h), min_eq_right h.le]
  · rw [if_neg (mt (lt_fin _ _).1 h), min_eq_left (not_lt.1 h)]
theorem greatest_fin (x y : ℝ) : greatest (fin x) (fin y) = fin (max x y) := by
  unfold greatest
  by_cases h : x < y
  · rw [if_pos ((lt_fin _ _).2 h), max_eq_right h.le]
  · rw [if_neg (mt (lt_fin _ _).1 h), max_eq_left (not_lt.1 h)]

/-- The numbers of a pass are those of the model in real numbers where nothing is divided by zero. -/
theorem pass_fin (U : Srhd.Vec) (g p : ℝ) (h1 : U 4 + U 0 + p ≠ 0) (h2 : U 0 ≠ 0) (h3 : Srhd.guessDh U p ≠ 0) :
    pass (fun a => fin (U a)) (fin g) (fin p) = ⟨fin (Srhd.guessV2 U p), fin (Srhd.guessW U p), fin (Srhd.guessF U g p), fin (Srhd.guessG U g p)⟩ := by
  have hv : Srhd.guessV2 U p ≤ 1 - 1 / 10000000000 := min_le_right _ _
  have hc : 1 - Srhd.guessV2 U p ≠ 0 := by
    have : (0 : ℝ) < 1 / 10000000000 := by norm_num
    intro h0
    linarith
  have hW2 : 0 < 1 / (1 - Srhd.guessV2 U p) := by
    apply one_div_pos.2
    have : (0 : ℝ) < 1 / 10000000000 := by norm_num
    linarith
  have hW : 0 < Srhd.guessW U p := Real.sqrt_pos.2 hW2
  have hd : U 0 / Srhd.guessW U p ≠ 0 := div_ne_zero h2 hW.ne'
  have e1 : least ((fin (U 1) * fin (U 1) + fin (U 2) * fin (U 2) + fin (U 3) * fin (U 3)) / sq (fin (U 4) + fin (U 0) + fin p)) (lit (1 - 1 / 10000000000))
      = fin (Srhd.guessV2 U p) := by
    simp only [mul_fin, add_fin, sq_fin, lit_fin]
    rw [div_fin _ (pow_ne_zero 2 h1), least_fin]
    push_cast
    rfl
  have e2 : (lit 1 : Ext) / (lit 1 - fin (Srhd.guessV2 U p)) = fin (1 / (1 - Srhd.guessV2 U p)) := by
    simp only [lit_fin, Rat.cast_one, sub_fin]
    rw [div_fin _ hc]
  have e3 : sqrt (fin (1 / (1 - Srhd.guessV2 U p))) = fin (Srhd.guessW U p) := sqrt_fin hW2.le
  unfold pass
  dsimp only
  rw [e1, e2, e3]
  simp only [lit_fin, Rat.cast_one, sub_fin, mul_fin, add_fin]
  rw [div_fin _ (mul_ne_zero h2 hW.ne'), div_fin _ hW.ne']
  simp only [add_fin, mul_fin, sub_fin]
  rw [div_fin _ hd]
  simp only [add_fin, mul_fin, sub_fin]
  rw [show U 0 / Srhd.guessW U p * (1 + (U 4 + U 0 * (1 - Srhd.guessW U p) + p * (1 - 1 / (1 - Srhd.guessV2 U p))) / (U 0 * Srhd.guessW U p) + p / (U 0 / Srhd.guessW U p))
    = Srhd.guessDh U p from rfl, div_fin _ h3]
  rfl

theorem loop_fin (U : Srhd.Vec) (g : ℝ) (n : ℕ) (p : ℝ) {r : Bool × ℝ × ℝ} (h : Srhd.loop U g n p = .ok r) :
    loop (fun a => fin (U a)) (fin g) n (fin p) = (r.1, fin r.2.1, fin r.2.2) ∧ 0 < r.2.2 := by
  induction n generalizing p with
  | zero =>
    injection h with h
    subst h
    refine ⟨?_, one_pos⟩
    show (false, fin p, fin ((1 : ℚ) : ℝ)) = _
    rw [Rat.cast_one]
  | succ n ih =>
    unfold Srhd.loop at h
    dsimp only at h
    split_ifs at h with h1 h2
    · injection h with h
      subst h
      simp only [not_or] at h1
      unfold loop
      dsimp only
      rw [pass_fin U g p h1.1 h1.2.1 h1.2.2.1]
      dsimp only
      rw [div_fin _ h1.2.2.2, sub_fin, abs_fin, lit_fin]
      refine ⟨if_pos ?_, Real.sqrt_pos.2 (one_div_pos.2 ?_)⟩
      · rw [lt_fin]
        push_cast
        exact h2
      · have hv : Srhd.guessV2 U p ≤ 1 - 1 / 10000000000 := min_le_right _ _
        have : (0 : ℝ) < 1 / 10000000000 := by norm_num
        linarith
    · simp only [not_or] at h1
      obtain ⟨k1, k2⟩ := ih _ h
      refine ⟨?_, k2⟩
      unfold loop
      dsimp only
      rw [pass_fin U g p h1.1 h1.2.1 h1.2.2.1]
      dsimp only
      rw [div_fin _ h1.2.2.2, sub_fin, abs_fin, lit_fin, if_neg]
      · exact k1
      · rw [lt_fin]
        push_cast
        exact h2

theorem finish_fin (U : Srhd.Vec) (T : ℝ) (found : Bool) (p : ℝ) {W : ℝ} (hW : 0 < W) :
    (∀ P, Srhd.finish U T found p W = .ok P → finish (fun a => fin (U a)) (fin T) found (fin p) (fin W) = .ok fun a => fin (P a))
      ∧ ∀ e, Srhd.finish U T found p W = .throws e → finish (fun a => fin (U a)) (fin T) found (fin p) (fin W) = .throws e := by
  have e0 : (lit 0 : Ext) = fin 0 := by rw [lit_fin, Rat.cast_zero]
  have ef : (if lt (lit 0) (fin T) then greatest (fin p) (fin T * fin (U 0) / fin W) else fin p) = fin (Srhd.floored p (U 0 / W) T) := by
    unfold Srhd.floored
    by_cases hT : 0 < T
    · rw [if_pos hT, if_pos (by rw [e0, lt_fin]; exact hT), mul_fin, div_fin _ hW.ne', greatest_fin, mul_div_assoc]
    · rw [if_neg hT, if_neg (by rw [e0, lt_fin]; exact hT)]
  unfold Srhd.finish finish
  dsimp only
  rw [ef]
  generalize Srhd.floored p (U 0 / W) T = p'
  by_cases hs : U 4 + U 0 + p' = 0
  · rw [if_pos hs]
    exact ⟨fun P h => (by cases h), fun e h => (by cases h)⟩
  rw [if_neg hs]
  simp only [add_fin, mul_fin, div_fin _ hs, div_fin _ hW.ne', e0]
  have ePx : (![fin (U 0 / W), fin (W * U 1 / (U 4 + U 0 + p')), fin (W * U 2 / (U 4 + U 0 + p')), fin (W * U 3 / (U 4 + U 0 + p')), fin p'] : Vec Ext)
      = fun a => fin ((![U 0 / W, W * U 1 / (U 4 + U 0 + p'), W * U 2 / (U 4 + U 0 + p'), W * U 3 / (U 4 + U 0 + p'), p'] : Srhd.Vec) a) := by
    funext a
    fin_cases a <;> rfl
  rw [ePx]
  generalize (![U 0 / W, W * U 1 / (U 4 + U 0 + p'), W * U 2 / (U 4 + U 0 + p'), W * U 3 / (U 4 + U 0 + p'), p'] : Srhd.Vec) = P
  have hn : ¬isNan (fin W) := fun h => by cases h
  by_cases h1 : found = false
  · rw [if_pos h1, if_pos h1]
    exact ⟨fun P h => (by cases h), fun e h => (by injection h with h; rw [h])⟩
  rw [if_neg h1, if_neg h1]
  by_cases h2 : P 0 ≤ 0
  · rw [if_pos h2, if_pos ((le_fin _ _).2 h2)]
    exact ⟨fun P h => (by cases h), fun e h => (by injection h with h; rw [h])⟩
  rw [if_neg h2, if_neg (mt (le_fin _ _).1 h2)]
  by_cases h3 : P 4 ≤ 0
  · rw [if_pos h3, if_pos ((le_fin _ _).2 h3)]
    exact ⟨fun P h => (by cases h), fun e h => (by injection h with h; rw [h])⟩
  rw [if_neg h3, if_neg (mt (le_fin _ _).1 h3), if_neg hn]
  exact ⟨fun Q h => (by injection h with h; rw [h]), fun e h => (by cases h)⟩

/-- What the model in real numbers (C59, C83) says of the recovery is also so in the arithmetic with NaN. -/
theorem recover_agrees (U : Srhd.Vec) (g T : ℝ) :
    (∀ P, Srhd.recover U g T = .ok P → recover (fun a => fin (U a)) (fin g) (fin T) = .ok fun a => fin (P a))
      ∧ ∀ e, Srhd.recover U g T = .throws e → recover (fun a => fin (U a)) (fin g) (fin T) = .throws e := by
  have e0 : (lit 0 : Ext) = fin 0 := by rw [lit_fin, Rat.cast_zero]
  unfold Srhd.recover recover
  rw [e0]
  cases hl : Srhd.loop U g 50 0 with
  | ok r =>
    obtain ⟨k1, k2⟩ := loop_fin U g 50 0 hl
    dsimp only
    rw [k1]
    exact finish_fin U T r.1 r.2.1 k2
  | throws e =>
    exfalso
    revert hl
    generalize (0 : ℝ) = p
    generalize 50 = n
    induction n generalizing p with
    | zero => intro h; cases h
    | succ n ih =>
      intro h
      unfold Srhd.loop at h
      dsimp only at h
      split_ifs at h
      exact ih _ h
  | ub => exact ⟨fun P h => (by cases h), fun e h => (by cases h)⟩
  | diverges => exact ⟨fun P h => (by cases h), fun e h => (by cases h)⟩

end Ext

/-! ## What is not refused -/

open Ext in
/-- **C132, violated.**  A conserved state of numbers, whose recovery is NaN in pressure and velocity, with any temperature floor. -/
theorem recover_result_violated (T : ℝ) : ∃ U : Fin 5 → ℝ, ∃ P : Vec Ext, recover (fun a => fin (U a)) (fin (4 / 3)) (fin T) = .ok P ∧ isNan (P 1) ∧ isNan (P 4) := by
  have e0 : (lit 0 : Ext) = fin 0 := by rw [lit_fin, Rat.cast_zero]
  have hpass : pass (fun a => fin ((![1 / 10000000000, 1, 0, 0, -(1 / 10000000000)] : Fin 5 → ℝ) a)) (fin (4 / 3)) (lit 0)
      = ⟨fin (1 - 1 / 10000000000), fin 100000, fin (-(1 / 3000000000000000)), .nan⟩ := by
    have hroot : Real.sqrt 10000000000 = 100000 := by
      rw [show (10000000000 : ℝ) = 100000 ^ 2 by norm_num]
      exact Real.sqrt_sq (by norm_num)
    have e1 : least ((fin 1 * fin 1 + fin 0 * fin 0 + fin 0 * fin 0) / sq (fin (-(1 / 10000000000)) + fin (1 / 10000000000) + fin 0)) (lit (1 - 1 / 10000000000))
        = fin (1 - 1 / 10000000000) := by
      simp only [mul_fin, add_fin, sq_fin, lit_fin]
      rw [show fin (1 * 1 + 0 * 0 + 0 * 0) / fin ((-(1 / 10000000000) + 1 / 10000000000 + 0) ^ 2) = .inf false by
        show (if ((-(1 / 10000000000) + 1 / 10000000000 + 0) ^ 2 : ℝ) = 0 then if (1 * 1 + 0 * 0 + 0 * 0 : ℝ) = 0 then Ext.nan else .inf (decide ((1 * 1 + 0 * 0 + 0 * 0 : ℝ) < 0)) else _) = _
        rw [if_pos (by norm_num), if_neg (by norm_num), decide_eq_false (by norm_num)]]
      refine (if_pos trivial).trans ?_
      push_cast
      rfl
    unfold pass
    dsimp only
    rw [e0]
    show Pass.mk (least ((fin 1 * fin 1 + fin 0 * fin 0 + fin 0 * fin 0) / sq (fin (-(1 / 10000000000)) + fin (1 / 10000000000) + fin 0)) (lit (1 - 1 / 10000000000))) _ _ _ = _
    have e2 : (lit 1 : Ext) / (lit 1 - fin (1 - 1 / 10000000000)) = fin 10000000000 := by
      simp only [lit_fin, Rat.cast_one, sub_fin]
      rw [div_fin _ (by norm_num)]
      norm_num
    have e3 : sqrt (fin 10000000000) = fin 100000 := by
      rw [sqrt_fin (by norm_num), hroot]
    have e4 : (fin (-(1 / 10000000000)) + fin (1 / 10000000000) * (lit 1 - fin 100000) + fin 0 * (lit 1 - fin 10000000000)) / (fin (1 / 10000000000) * fin 100000) = fin (-1) := by
      simp only [lit_fin, Rat.cast_one, sub_fin, mul_fin, add_fin]
      rw [div_fin _ (by norm_num)]
      norm_num
    have e5 : fin (1 / 10000000000) / fin 100000 = fin (1 / 1000000000000000) := by
      rw [div_fin _ (by norm_num)]
      norm_num
    have e6 : (lit 1 : Ext) + fin (-1) + fin 0 / fin (1 / 1000000000000000) = fin 0 := by
      rw [div_fin _ (by norm_num)]
      simp only [lit_fin, Rat.cast_one, add_fin]
      norm_num
    have e7 : fin (4 / 3) * fin 0 / (fin (1 / 1000000000000000) * fin 0) = .nan := by
      rw [mul_fin, mul_fin, mul_zero, mul_zero]
      exact (if_pos rfl).trans (if_pos rfl)
    have a0 : (![1 / 10000000000, 1, 0, 0, -(1 / 10000000000)] : Fin 5 → ℝ) 0 = 1 / 10000000000 := rfl
    have a4 : (![1 / 10000000000, 1, 0, 0, -(1 / 10000000000)] : Fin 5 → ℝ) 4 = -(1 / 10000000000) := rfl
    rw [a0, a4]
    simp only [show (![1 / 10000000000, 1, 0, 0, -(1 / 10000000000)] : Fin 5 → ℝ) 1 = 1 from rfl, show (![1 / 10000000000, 1, 0, 0, -(1 / 10000000000)] : Fin 5 → ℝ) 2 = 0 from rfl,
      show (![1 / 10000000000, 1, 0, 0, -(1 / 10000000000)] : Fin 5 → ℝ) 3 = 0 from rfl]
    rw [e1, e2, e3, e4, e5, e6, e7]
    have e8 : fin (1 / 1000000000000000) * fin (-1) * (fin (4 / 3) - lit 1) - fin 0 = fin (-(1 / 3000000000000000)) := by
      simp only [lit_fin, Rat.cast_one, sub_fin, mul_fin]
      norm_num
    rw [e8]
    rfl
  refine ⟨![1 / 10000000000, 1, 0, 0, -(1 / 10000000000)], ![fin (1 / 1000000000000000), .nan, .nan, .nan, .nan], ?_, rfl, rfl⟩
  unfold recover
  dsimp only
  have hl : loop (fun a => fin ((![1 / 10000000000, 1, 0, 0, -(1 / 10000000000)] : Fin 5 → ℝ) a)) (fin (4 / 3)) 50 (lit 0) = (true, .nan, fin 100000) := by
    unfold loop
    dsimp only
    rw [hpass]
    dsimp only
    rw [if_pos]
    · congr 1
    · rw [abs_fin, lit_fin, lt_fin]
      push_cast
      rw [abs_neg, abs_of_pos (by norm_num)]
      norm_num
  rw [hl]
  unfold finish
  dsimp only
  have hp : (if lt (lit 0) (fin T) then greatest Ext.nan (fin T * fin ((![1 / 10000000000, 1, 0, 0, -(1 / 10000000000)] : Fin 5 → ℝ) 0) / fin 100000) else .nan) = Ext.nan := by
    split_ifs
    · exact if_neg (Ieee.lt_nan (.inl rfl))
    · rfl
  rw [hp]
  have e5 : fin ((![1 / 10000000000, 1, 0, 0, -(1 / 10000000000)] : Fin 5 → ℝ) 0) / fin 100000 = fin (1 / 1000000000000000) := by
    show fin (1 / 10000000000) / fin 100000 = _
    rw [div_fin _ (by norm_num)]
    norm_num
  rw [e5]
  refine (if_neg (by decide)).trans ((if_neg ?_).trans ((if_neg (Ieee.le_nan (.inl rfl))).trans ((if_neg ?_).trans ?_)))
  · rw [e0]
    show ¬le (fin (1 / 1000000000000000)) (fin 0)
    rw [le_fin]
    norm_num
  · intro h
    cases h
  · rfl

/-- What a gas can have: positive mass, and more energy than its momentum and mass make necessary. -/
def Possible (U : Srhd.Vec) : Prop := 0 < U 0 ∧ 0 < U 4 + U 0 ∧ U 1 ^ 2 + U 2 ^ 2 + U 3 ^ 2 + U 0 ^ 2 < (U 4 + U 0) ^ 2

/-- Every gas has such conserved densities. -/
theorem possible_of_physical {P : Srhd.Vec} (h : Srhd.Physical P) {g : ℝ} (hg : 1 < g) (hg2 : g ≤ 2) : Possible (Srhd.toConserved P g) := by
  obtain ⟨t0, t1, t2, t3, t4, -⟩ := Srhd.true_eq P h g hg
  have hW := Srhd.lorentz_pos P
  have hW1 : 1 ≤ Srhd.lorentzFactor P ^ 2 := by
    rw [Srhd.lorentz_sq]
    have : 0 ≤ Srhd.gammaBetaSquared P := add_nonneg (add_nonneg (mul_self_nonneg _) (mul_self_nonneg _)) (mul_self_nonneg _)
    linarith
  have hH : P 0 * Srhd.specificEnthalpy P g = P 0 + P 4 * (1 + 1 / (g - 1)) := by
    unfold Srhd.specificEnthalpy Srhd.enthalpyDensity
    rw [mul_div_cancel₀ _ h.1.ne']
  have hk : 1 ≤ 1 / (g - 1) := by
    rw [le_div_iff₀ (by linarith)]
    linarith
  have h0 := h.1
  have h4 := h.2
  have t4' : Srhd.toConserved P g 1 ^ 2 + Srhd.toConserved P g 2 ^ 2 + Srhd.toConserved P g 3 ^ 2
      = (P 0 * Srhd.lorentzFactor P * Srhd.specificEnthalpy P g * Srhd.lorentzFactor P) ^ 2 - (P 0 * Srhd.lorentzFactor P * Srhd.specificEnthalpy P g) ^ 2 := by
    rw [← t4]
    unfold Srhd.momentumSquared
    ring
  have hE : Srhd.toConserved P g 4 + Srhd.toConserved P g 0 = P 0 * Srhd.lorentzFactor P * Srhd.specificEnthalpy P g * Srhd.lorentzFactor P - P 4 := by linarith
  refine ⟨t0 ▸ t2, ?_, ?_⟩
  · rw [hE, show P 0 * Srhd.lorentzFactor P * Srhd.specificEnthalpy P g * Srhd.lorentzFactor P = P 0 * Srhd.specificEnthalpy P g * Srhd.lorentzFactor P ^ 2 by ring, hH]
    have : (P 0 + P 4 * (1 + 1 / (g - 1))) * 1 ≤ (P 0 + P 4 * (1 + 1 / (g - 1))) * Srhd.lorentzFactor P ^ 2 := mul_le_mul_of_nonneg_left hW1 (by positivity)
    have : P 4 * 1 ≤ P 4 * (1 / (g - 1)) := mul_le_mul_of_nonneg_left hk h4.le
    linarith
  · rw [t4', hE, t0]
    have e : P 0 * Srhd.lorentzFactor P * Srhd.specificEnthalpy P g * Srhd.lorentzFactor P = (P 0 + P 4 * (1 + 1 / (g - 1))) * Srhd.lorentzFactor P ^ 2 := by
      rw [← hH]
      ring
    have e' : P 0 * Srhd.lorentzFactor P * Srhd.specificEnthalpy P g = (P 0 + P 4 * (1 + 1 / (g - 1))) * Srhd.lorentzFactor P := by
      rw [← hH]
      ring
    rw [e, e']
    clear e e' t0 t1 t2 t4 t4' hE hH
    generalize Srhd.lorentzFactor P = W at *
    generalize 1 / (g - 1) = k at *
    have key : 0 < W ^ 2 * ((P 0 + P 4 * k) ^ 2 - P 4 ^ 2 - P 0 ^ 2) := by
      refine mul_pos (by positivity) ?_
      have : (P 0 + P 4) ^ 2 ≤ (P 0 + P 4 * k) ^ 2 := by
        refine pow_le_pow_left₀ (by positivity) ?_ 2
        have := mul_le_mul_of_nonneg_left hk h4.le
        linarith
      have := mul_pos h0 h4
      linarith
    nlinarith [mul_pos h4 h4]

/-- **C132, violated.**  A state that no gas can have (its momentum is about ten thousand times its energy) is not refused: it comes back as a gas with a thousand times the mass, or more. -/
theorem recover_impossible_violated : ∃ U P : Srhd.Vec, ¬Possible U ∧ Srhd.recover U (4 / 3) 0 = .ok P ∧ 1000 * U 0 ≤ Srhd.toConserved P (4 / 3) 0 := by
  have hroot : Real.sqrt 10000000000 = 100000 := by
    rw [show (10000000000 : ℝ) = 100000 ^ 2 by norm_num]
    exact Real.sqrt_sq (by norm_num)
  set U : Srhd.Vec := ![1, 1000000000, 0, 0, 100000] with hU
  have a0 : U 0 = 1 := rfl
  have a1 : U 1 = 1000000000 := rfl
  have a2 : U 2 = 0 := rfl
  have a3 : U 3 = 0 := rfl
  have a4 : U 4 = 100000 := rfl
  have hv : Srhd.guessV2 U 0 = 1 - 1 / 10000000000 := by
    unfold Srhd.guessV2 Srhd.momentumSquared
    rw [a0, a1, a2, a3, a4]
    exact min_eq_right (by norm_num)
  have hW : Srhd.guessW U 0 = 100000 := by
    unfold Srhd.guessW
    rw [hv, show (1 / (1 - (1 - 1 / 10000000000)) : ℝ) = 10000000000 by norm_num, hroot]
  have hE : Srhd.guessE U 0 = 1 / 100000 := by
    unfold Srhd.guessE
    rw [hW, hv, a0, a4]
    norm_num
  have hF : Srhd.guessF U (4 / 3) 0 = 1 / 30000000000 := by
    unfold Srhd.guessF
    rw [hE, hW, a0]
    norm_num
  have hG : Srhd.guessG U (4 / 3) 0 = -1 := by
    unfold Srhd.guessG
    norm_num
  have hD : Srhd.guessDh U 0 ≠ 0 := by
    unfold Srhd.guessDh
    rw [hE, hW, a0]
    norm_num
  have hl : Srhd.loop U (4 / 3) 50 0 = .ok (true, 1 / 30000000000, 100000) := by
    unfold Srhd.loop
    rw [if_neg (by rw [hG, a0, a4]; simp only [not_or]; exact ⟨by norm_num, by norm_num, hD, by norm_num⟩), hF, hG, hW]
    dsimp only
    rw [if_pos (by unfold Srhd.tolerance; rw [abs_of_pos (by norm_num)]; norm_num)]
    norm_num
  set P : Srhd.Vec := ![1 / 100000, 100000 * 1000000000 / (100001 + 1 / 30000000000), 0, 0, 1 / 30000000000] with hP
  refine ⟨U, P, fun h => ?_, ?_, ?_⟩
  · have := h.2.2
    rw [a0, a1, a2, a3, a4] at this
    norm_num at this
  · unfold Srhd.recover
    rw [hl]
    dsimp only
    unfold Srhd.finish Srhd.floored
    dsimp only
    rw [if_neg (lt_irrefl 0), a0, a1, a2, a3, a4]
    rw [if_neg (by norm_num), if_neg (by decide), if_neg (by rw [Srhd.at0]; norm_num), if_neg (by rw [Srhd.at4]; norm_num), hP]
    congr 1
    funext i
    revert i
    refine Srhd.forall5 ?_ ?_ ?_ ?_ ?_ <;> simp only [Srhd.at0, Srhd.at1, Srhd.at2, Srhd.at3, Srhd.at4] <;> norm_num
  · have hL : 100000000 ≤ Srhd.lorentzFactor P := by
      unfold Srhd.lorentzFactor
      apply Real.le_sqrt_of_sq_le
      unfold Srhd.gammaBetaSquared
      rw [show P 1 = 100000 * 1000000000 / (100001 + 1 / 30000000000) from rfl, show P 2 = 0 from rfl, show P 3 = 0 from rfl]
      norm_num
    show 1000 * U 0 ≤ P 0 * Srhd.lorentzFactor P
    rw [a0, show P 0 = 1 / 100000 from rfl]
    linarith

/-! ## Examples -/

open Ext

/-- Momentum that is NaN in otherwise sound gas. -/
example : recover ![fin 1, .nan, fin 0, fin 0, fin 3] (fin (4 / 3)) (fin 0) = .throws .invalidArgument := recover_refuses_nan (a := 1) rfl _ _

example : recover ![fin 1, fin 0, fin 0, fin 0, fin 3] .nan (fin 0) = .throws .invalidArgument := recover_refuses_index rfl _ _

/-- Gas at rest is recovered in both arithmetics: the hypotheses of `recover_result_partial` and `recover_agrees` can be met. -/
example : recover (fun a => fin (Srhd.toConserved ![1, 0, 0, 0, 1] (4 / 3) a)) (fin (4 / 3)) (fin 0) = .ok (fun a => fin ((![1, 0, 0, 0, 1] : Srhd.Vec) a))
    ∧ ¬isNan (fin ((![1, 0, 0, 0, 1] : Srhd.Vec) 0)) := by
  have h := (recover_agrees _ (4 / 3) 0).1 _ (Srhd.recover_rest ![1, 0, 0, 0, 1] ⟨one_pos, one_pos⟩ rfl rfl rfl _ (by norm_num) 0 (by rw [zero_mul]; exact zero_le_one))
  exact ⟨h, (recover_result_partial h).1⟩

/-- Energy that is NaN, with a temperature floor. -/
example : isNan (eulerRecover ![fin 1, fin 0, fin 0, fin 0, .nan] (fin (5 / 3)) (fin 1) 4) := euler_keeps_nan (.inr rfl) _ _

/-- A block with a density that is NaN, one that is zero and one that is infinite passes; with a negative one it does not. -/
example : (∃ r, validate [[fin 1, .nan], [fin 0, .inf false]] = .ok r) ∧ ¬∃ r, validate [[fin 1, .nan], [fin (-1), .inf false]] = .ok r := by
  have e0 : (lit 0 : Ext) = fin 0 := by rw [lit_fin, Rat.cast_zero]
  rw [validate_partial, validate_partial, e0]
  constructor
  · intro b hb d hd hl
    simp only [List.mem_cons, List.not_mem_nil, or_false] at hb
    rcases hb with rfl | rfl <;> simp only [List.mem_cons, List.not_mem_nil, or_false] at hd <;> rcases hd with rfl | rfl
    · rw [lt_fin] at hl
      norm_num at hl
    · exact hl
    · exact lt_irrefl _ ((lt_fin _ _).1 hl)
    · exact hl
  · intro h
    exact h [fin (-1), .inf false] (by simp) (fin (-1)) (by simp) ((lt_fin _ _).2 (by norm_num))

example : validate [[Ext.nan], [.nan, .nan]] = .ok [[.nan], [.nan, .nan]] := validate_violated (by simp [show ∀ a : Ext, isNan a ↔ a = .nan from fun _ => Iff.rfl])

/-- Moving gas is possible. -/
example : Possible (Srhd.toConserved ![1, 3, 0, -2, 1 / 2] (4 / 3)) := possible_of_physical ⟨one_pos, by rw [Srhd.at4]; norm_num⟩ (by norm_num) (by norm_num)

end Verif.Nan
