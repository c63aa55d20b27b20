import Verif.Lemmas.Rational

/-!
# C03–C06: rational numbers and the iteration counter
-/

namespace Verif.Rational
open Verif

/-! ## C03 exactness -/

/-- C03, addition: in the no-overflow region the sum is exact and canonical. -/
theorem rational_add_exact (r s : Rational) (hr : WF r) (hs : WF s)
    (h1 : Fits (r.num * s.den)) (h2 : Fits (r.den * s.num))
    (h3 : Fits (r.num * s.den + r.den * s.num)) (h4 : Fits (r.den * s.den)) :
    ∃ t, add r s = .ok t ∧ WF t ∧ val t = val r + val s := by
  unfold Fits at *
  have rp := hr.den_pos; have sp := hs.den_pos
  have dne : r.den * s.den ≠ 0 := (Int.mul_pos rp sp).ne'
  obtain ⟨t, e, w, v⟩ := mk_spec (r.num * s.den + r.den * s.num) (r.den * s.den)
    (by unfold intMin intMax; omega) (by unfold intMin intMax; omega) dne
  refine ⟨t, ?_, w, ?_⟩
  · unfold add
    rw [chk_of (by unfold intMin intMax; omega), chk_of (by unfold intMin intMax; omega)]
    simp only [Outcome.bind_ok]
    rw [chk_of (by unfold intMin intMax; omega), chk_of (by unfold intMin intMax; omega)]
    simpa using e
  · rw [v]; unfold val
    have := den_ne hr; have := den_ne hs
    push_cast; field_simp

example : ∃ t, add ⟨1, 6⟩ ⟨3, 4⟩ = .ok t ∧ WF t ∧ val t = 11 / 12 := by
  obtain ⟨t, h, hw, hv⟩ := rational_add_exact ⟨1, 6⟩ ⟨3, 4⟩ (by constructor <;> decide)
    (by constructor <;> decide) (by decide) (by decide) (by decide) (by decide)
  exact ⟨t, h, hw, by rw [hv]; norm_num [val]⟩

/-- C03, subtraction. -/
theorem rational_sub_exact (r s : Rational) (hr : WF r) (hs : WF s)
    (h1 : Fits (r.num * s.den)) (h2 : Fits (r.den * s.num))
    (h3 : Fits (r.num * s.den - r.den * s.num)) (h4 : Fits (r.den * s.den)) :
    ∃ t, sub r s = .ok t ∧ WF t ∧ val t = val r - val s := by
  unfold Fits at *
  have rp := hr.den_pos; have sp := hs.den_pos
  have dne : r.den * s.den ≠ 0 := (Int.mul_pos rp sp).ne'
  obtain ⟨t, e, w, v⟩ := mk_spec (r.num * s.den - r.den * s.num) (r.den * s.den)
    (by unfold intMin intMax; omega) (by unfold intMin intMax; omega) dne
  refine ⟨t, ?_, w, ?_⟩
  · unfold sub
    rw [chk_of (by unfold intMin intMax; omega), chk_of (by unfold intMin intMax; omega)]
    simp only [Outcome.bind_ok]
    rw [chk_of (by unfold intMin intMax; omega), chk_of (by unfold intMin intMax; omega)]
    simpa using e
  · rw [v]; unfold val
    have := den_ne hr; have := den_ne hs
    push_cast; field_simp

example : ∃ t, sub ⟨1, 6⟩ ⟨3, 4⟩ = .ok t ∧ WF t ∧ val t = -7 / 12 := by
  obtain ⟨t, h, hw, hv⟩ := rational_sub_exact ⟨1, 6⟩ ⟨3, 4⟩ (by constructor <;> decide)
    (by constructor <;> decide) (by decide) (by decide) (by decide) (by decide)
  exact ⟨t, h, hw, by rw [hv]; norm_num [val]⟩

/-- C03, multiplication. -/
theorem rational_mul_exact (r s : Rational) (hr : WF r) (hs : WF s)
    (h1 : Fits (r.num * s.num)) (h2 : Fits (r.den * s.den)) :
    ∃ t, mul r s = .ok t ∧ WF t ∧ val t = val r * val s := by
  unfold Fits at *
  have rp := hr.den_pos; have sp := hs.den_pos
  have dne : r.den * s.den ≠ 0 := (Int.mul_pos rp sp).ne'
  obtain ⟨t, e, w, v⟩ := mk_spec (r.num * s.num) (r.den * s.den)
    (by unfold intMin intMax; omega) (by unfold intMin intMax; omega) dne
  refine ⟨t, ?_, w, ?_⟩
  · unfold mul
    rw [chk_of (by unfold intMin intMax; omega), chk_of (by unfold intMin intMax; omega)]
    simpa using e
  · rw [v]; unfold val
    have := den_ne hr; have := den_ne hs
    push_cast; field_simp

example : ∃ t, mul ⟨1, 6⟩ ⟨-3, 4⟩ = .ok t ∧ WF t ∧ val t = -1 / 8 := by
  obtain ⟨t, h, hw, hv⟩ := rational_mul_exact ⟨1, 6⟩ ⟨-3, 4⟩ (by constructor <;> decide)
    (by constructor <;> decide) (by decide) (by decide)
  exact ⟨t, h, hw, by rw [hv]; norm_num [val]⟩

/-- C03, division by a non-zero number. -/
theorem rational_div_exact (r s : Rational) (hr : WF r) (hs : WF s) (h0 : val s ≠ 0)
    (h1 : Fits (r.num * s.den)) (h2 : Fits (r.den * s.num)) :
    ∃ t, div r s = .ok t ∧ WF t ∧ val t = val r / val s := by
  unfold Fits at *
  have rp := hr.den_pos; have sp := hs.den_pos
  have sn : s.num ≠ 0 := by rintro e; exact h0 (by simp [val, e])
  have dne : r.den * s.num ≠ 0 := Int.mul_ne_zero (by omega) sn
  obtain ⟨t, e, w, v⟩ := mk_spec (r.num * s.den) (r.den * s.num)
    (by unfold intMin intMax; omega) (by unfold intMin intMax; omega) dne
  refine ⟨t, ?_, w, ?_⟩
  · unfold div
    rw [chk_of (by unfold intMin intMax; omega), chk_of (by unfold intMin intMax; omega)]
    simpa using e
  · rw [v]; unfold val
    have := den_ne hr; have := den_ne hs
    have : (s.num : ℚ) ≠ 0 := by exact_mod_cast sn
    push_cast; field_simp

example : ∃ t, div ⟨1, 6⟩ ⟨-3, 4⟩ = .ok t ∧ WF t ∧ val t = -2 / 9 := by
  obtain ⟨t, h, hw, hv⟩ := rational_div_exact ⟨1, 6⟩ ⟨-3, 4⟩ (by constructor <;> decide)
    (by constructor <;> decide) (by norm_num [val]) (by decide) (by decide)
  exact ⟨t, h, hw, by rw [hv]; norm_num [val]⟩

/-- C03, division by zero throws. -/
theorem rational_div_zero_throws (r s : Rational) (hs : WF s) (h0 : val s = 0)
    (h1 : Fits (r.num * s.den)) : div r s = .throws .invalidArgument := by
  have sn : s.num = 0 := by
    unfold val at h0
    rcases (div_eq_zero_iff.mp h0) with h | h
    · exact_mod_cast h
    · exact absurd h (den_ne hs)
  unfold Fits at h1
  unfold div
  rw [chk_of (by unfold intMin intMax; omega), sn]
  simp [chk, intMin, intMax, mk]

example : div ⟨5, 6⟩ ⟨0, 1⟩ = .throws .invalidArgument :=
  rational_div_zero_throws _ _ (by constructor <;> decide) (by norm_num [val]) (by decide)

/-- C03, a zero denominator throws, a non-zero one gives the exact canonical fraction. -/
theorem rational_make_exact (n d : Int) (hn : Fits n) (hd : Fits d) :
    (d = 0 → mk n d = .throws .invalidArgument) ∧
    (d ≠ 0 → ∃ t, mk n d = .ok t ∧ WF t ∧ val t = (n : ℚ) / d) := by
  unfold Fits at *
  refine ⟨fun h => by simp [mk, h], fun h => mk_spec n d ?_ ?_ h⟩ <;> unfold intMin intMax <;> omega

example : ∃ t, mk 6 (-4) = .ok t ∧ WF t ∧ val t = -3 / 2 := by
  obtain ⟨t, h, hw, hv⟩ := (rational_make_exact 6 (-4) (by decide) (by decide)).2 (by decide)
  exact ⟨t, h, hw, by rw [hv]; norm_num⟩

/-- C03 for whole expressions: whatever expression a user evaluates, the code returns the exact
value in canonical form, or throws `invalid_argument` and then the expression does divide by
zero, or overflows (`ub`); it never loops and never returns a wrong number. -/
theorem rational_expr_sound (e : Expr) :
    (∃ r, e.eval = .ok r ∧ WF r ∧ e.denote = some (val r)) ∨
    (e.eval = .throws .invalidArgument ∧ e.denote = none) ∨ e.eval = .ub := by
  induction e with
  | int n =>
    rcases chk_cases n with ⟨h, hi⟩ | h
    · left
      refine ⟨ofInt n, by simp [Expr.eval, h], ⟨hi.1, hi.2, by simp [ofInt], by simp [ofInt, intMax],
        by simp [ofInt]⟩, by simp [Expr.denote, val, ofInt]⟩
    · right; right; simp [Expr.eval, h]
  | frac n d =>
    rcases chk_cases n with ⟨h, hi⟩ | h
    · rcases chk_cases d with ⟨h', hi'⟩ | h'
      · rcases mk_total n d hi hi' with ⟨z, t⟩ | ⟨z, r, t, w, v⟩ | ⟨z, t⟩
        · right; left; subst z; simp [Expr.eval, h, h', t, Expr.denote]
        · left; exact ⟨r, by simp [Expr.eval, h, h', t], w, by simp [Expr.denote, z, v]⟩
        · right; right; simp [Expr.eval, h, h', t]
      · right; right; simp [Expr.eval, h, h']
    · right; right; simp [Expr.eval, h]
  | add a b iha ihb =>
    rcases iha with ⟨r, er, wr, dr⟩ | ⟨er, dr⟩ | er
    · rcases ihb with ⟨s, es, ws, ds⟩ | ⟨es, ds⟩ | es
      · simp only [Expr.eval, er, es, Outcome.bind_ok, Expr.denote, dr, ds]
        unfold Rational.add
        rcases chk_cases (r.num * s.den) with ⟨h1, i1⟩ | h1 <;> rw [h1]
        · rcases chk_cases (r.den * s.num) with ⟨h2, i2⟩ | h2 <;> simp only [h2, Outcome.bind_ok]
          · rcases chk_cases (r.num * s.den + r.den * s.num) with ⟨h3, i3⟩ | h3 <;>
              simp only [h3, Outcome.bind_ok]
            · rcases chk_cases (r.den * s.den) with ⟨h4, i4⟩ | h4 <;>
                simp only [h4, Outcome.bind_ok]
              · have rp := wr.den_pos; have sp := ws.den_pos
                have dne : r.den * s.den ≠ 0 := (Int.mul_pos rp sp).ne'
                rcases mk_total _ _ i3 i4 with ⟨z, _⟩ | ⟨_, t, e, w, v⟩ | ⟨_, e⟩
                · exact absurd z dne
                · left
                  refine ⟨t, e, w, ?_⟩
                  rw [v]; unfold val
                  have := den_ne wr; have := den_ne ws
                  simp; push_cast; field_simp
                · right; right; exact e
              · right; right; rfl
            · right; right; rfl
          · right; right; rfl
        · right; right; rfl
      · right; left; simp [Expr.eval, er, es, Expr.denote, dr, ds]
      · right; right; simp [Expr.eval, er, es]
    · right; left; simp [Expr.eval, er, Expr.denote, dr]
    · right; right; simp [Expr.eval, er]
  | sub a b iha ihb =>
    rcases iha with ⟨r, er, wr, dr⟩ | ⟨er, dr⟩ | er
    · rcases ihb with ⟨s, es, ws, ds⟩ | ⟨es, ds⟩ | es
      · simp only [Expr.eval, er, es, Outcome.bind_ok, Expr.denote, dr, ds]
        unfold Rational.sub
        rcases chk_cases (r.num * s.den) with ⟨h1, i1⟩ | h1 <;> rw [h1]
        · rcases chk_cases (r.den * s.num) with ⟨h2, i2⟩ | h2 <;> simp only [h2, Outcome.bind_ok]
          · rcases chk_cases (r.num * s.den - r.den * s.num) with ⟨h3, i3⟩ | h3 <;>
              simp only [h3, Outcome.bind_ok]
            · rcases chk_cases (r.den * s.den) with ⟨h4, i4⟩ | h4 <;>
                simp only [h4, Outcome.bind_ok]
              · have rp := wr.den_pos; have sp := ws.den_pos
                have dne : r.den * s.den ≠ 0 := (Int.mul_pos rp sp).ne'
                rcases mk_total _ _ i3 i4 with ⟨z, _⟩ | ⟨_, t, e, w, v⟩ | ⟨_, e⟩
                · exact absurd z dne
                · left
                  refine ⟨t, e, w, ?_⟩
                  rw [v]; unfold val
                  have := den_ne wr; have := den_ne ws
                  simp; push_cast; field_simp
                · right; right; exact e
              · right; right; rfl
            · right; right; rfl
          · right; right; rfl
        · right; right; rfl
      · right; left; simp [Expr.eval, er, es, Expr.denote, dr, ds]
      · right; right; simp [Expr.eval, er, es]
    · right; left; simp [Expr.eval, er, Expr.denote, dr]
    · right; right; simp [Expr.eval, er]
  | mul a b iha ihb =>
    rcases iha with ⟨r, er, wr, dr⟩ | ⟨er, dr⟩ | er
    · rcases ihb with ⟨s, es, ws, ds⟩ | ⟨es, ds⟩ | es
      · simp only [Expr.eval, er, es, Outcome.bind_ok, Expr.denote, dr, ds]
        unfold Rational.mul
        rcases chk_cases (r.num * s.num) with ⟨h3, i3⟩ | h3 <;> simp only [h3, Outcome.bind_ok]
        · rcases chk_cases (r.den * s.den) with ⟨h4, i4⟩ | h4 <;> simp only [h4, Outcome.bind_ok]
          · have rp := wr.den_pos; have sp := ws.den_pos
            have dne : r.den * s.den ≠ 0 := (Int.mul_pos rp sp).ne'
            rcases mk_total _ _ i3 i4 with ⟨z, _⟩ | ⟨_, t, e, w, v⟩ | ⟨_, e⟩
            · exact absurd z dne
            · left
              refine ⟨t, e, w, ?_⟩
              rw [v]; unfold val
              have := den_ne wr; have := den_ne ws
              simp; push_cast; field_simp
            · right; right; exact e
          · right; right; rfl
        · right; right; rfl
      · right; left; simp [Expr.eval, er, es, Expr.denote, dr, ds]
      · right; right; simp [Expr.eval, er, es]
    · right; left; simp [Expr.eval, er, Expr.denote, dr]
    · right; right; simp [Expr.eval, er]
  | div a b iha ihb =>
    rcases iha with ⟨r, er, wr, dr⟩ | ⟨er, dr⟩ | er
    · rcases ihb with ⟨s, es, ws, ds⟩ | ⟨es, ds⟩ | es
      · simp only [Expr.eval, er, es, Outcome.bind_ok, Expr.denote, dr, ds]
        unfold Rational.div
        rcases chk_cases (r.num * s.den) with ⟨h3, i3⟩ | h3 <;> simp only [h3, Outcome.bind_ok]
        · rcases chk_cases (r.den * s.num) with ⟨h4, i4⟩ | h4 <;> simp only [h4, Outcome.bind_ok]
          · have rp := wr.den_pos; have sp := ws.den_pos
            have qr := den_ne wr; have qs := den_ne ws
            rcases mk_total _ _ i3 i4 with ⟨z, e⟩ | ⟨z, t, e, w, v⟩ | ⟨_, e⟩
            · right; left
              have sn : s.num = 0 := by
                rcases Int.mul_eq_zero.mp z with h | h
                · omega
                · exact h
              refine ⟨e, ?_⟩
              simp [val, sn]
            · left
              have sn : s.num ≠ 0 := by rintro h; simp [h] at z
              have snq : (s.num : ℚ) ≠ 0 := by exact_mod_cast sn
              have vs : val s ≠ 0 := by unfold val; exact div_ne_zero snq qs
              refine ⟨t, e, w, ?_⟩
              rw [v]
              simp only [Option.bind_eq_bind, Option.bind_some, vs, if_false, Option.some.injEq]
              unfold val
              push_cast; field_simp
            · right; right; exact e
          · right; right; rfl
        · right; right; rfl
      · right; left; simp [Expr.eval, er, es, Expr.denote, dr, ds]
      · right; right; simp [Expr.eval, er, es]
    · right; left; simp [Expr.eval, er, Expr.denote, dr]
    · right; right; simp [Expr.eval, er]
  | neg a iha =>
    rcases iha with ⟨r, er, wr, dr⟩ | ⟨er, dr⟩ | er
    · simp only [Expr.eval, er, Outcome.bind_ok, Expr.denote, dr]
      unfold Rational.neg
      rcases chk_cases (-r.num) with ⟨h3, i3⟩ | h3 <;> simp only [h3, Outcome.bind_ok]
      · have rp := wr.den_pos
        have dne : r.den ≠ 0 := by omega
        rcases mk_total _ _ i3 ⟨by unfold intMin; omega, wr.den_hi⟩ with
          ⟨z, _⟩ | ⟨_, t, e, w, v⟩ | ⟨_, e⟩
        · exact absurd z dne
        · left
          refine ⟨t, e, w, ?_⟩
          rw [v]; unfold val
          have := den_ne wr
          simp; field_simp
        · right; right; exact e
      · right; right; rfl
    · right; left; simp [Expr.eval, er, Expr.denote, dr]
    · right; right; simp [Expr.eval, er]
  | intSub n a iha =>
    rcases chk_cases n with ⟨hn, hi⟩ | hn
    · rcases iha with ⟨r, er, wr, dr⟩ | ⟨er, dr⟩ | er
      · simp only [Expr.eval, hn, er, Outcome.bind_ok, Expr.denote, dr]
        unfold Rational.intSub Rational.neg
        rcases chk_cases (-r.num) with ⟨h3, i3⟩ | h3 <;> simp only [h3, Outcome.bind_ok]
        · have rp := wr.den_pos
          have dne : r.den ≠ 0 := by omega
          rcases mk_total _ _ i3 ⟨by unfold intMin; omega, wr.den_hi⟩ with
            ⟨z, _⟩ | ⟨_, t, e, w, v⟩ | ⟨_, e⟩
          · exact absurd z dne
          · simp only [e, Outcome.bind_ok]
            unfold Rational.add ofInt
            rcases chk_cases (t.num * 1) with ⟨h1, i1⟩ | h1 <;> simp only [h1, Outcome.bind_ok]
            · rcases chk_cases (t.den * n) with ⟨h2, i2⟩ | h2 <;> simp only [h2, Outcome.bind_ok]
              · rcases chk_cases (t.num * 1 + t.den * n) with ⟨h5, i5⟩ | h5 <;>
                  simp only [h5, Outcome.bind_ok]
                · rcases chk_cases (t.den * 1) with ⟨h6, i6⟩ | h6 <;>
                    simp only [h6, Outcome.bind_ok]
                  · have tp := w.den_pos
                    rcases mk_total _ _ i5 i6 with ⟨z, _⟩ | ⟨_, u, e', w', v'⟩ | ⟨_, e'⟩
                    · omega
                    · left
                      refine ⟨u, e', w', ?_⟩
                      have hv : val t = - val r := by
                        rw [v]; unfold val; have := den_ne wr; push_cast; field_simp
                      have htv : val u = val t + n := by
                        rw [v']; unfold val; have := den_ne w; push_cast; field_simp
                      rw [htv, hv]
                      simp; ring
                    · right; right; exact e'
                  · right; right; rfl
                · right; right; rfl
              · right; right; rfl
            · right; right; rfl
          · right; right; simp [e]
        · right; right; rfl
      · right; left; simp [Expr.eval, hn, er, Expr.denote, dr]
      · right; right; simp [Expr.eval, hn, er]
    · right; right; simp [Expr.eval, hn]

/-- Hypotheses of the C03 theorems are met by 1/6 and 3/4. -/
example : WF ⟨1, 6⟩ ∧ WF ⟨3, 4⟩ ∧ val ⟨3, 4⟩ ≠ 0 ∧ Fits (1 * 4) ∧ Fits (6 * 3) ∧
    Fits (1 * 4 + 6 * 3) ∧ Fits (6 * 4) := by
  refine ⟨⟨?_, ?_, ?_, ?_, ?_⟩, ⟨?_, ?_, ?_, ?_, ?_⟩, ?_, ?_, ?_, ?_, ?_⟩ <;>
    first | decide | (unfold val; norm_num) | (intro _; decide)

example : add ⟨1, 6⟩ ⟨3, 4⟩ = .ok ⟨11, 12⟩ := by
  simp only [add, chk, intMin, intMax]
  norm_num
  exact mk_eq_of _ _ _ (by decide) (by decide) (by decide)
    (by constructor <;> simp [intMin, intMax]) (by decide) (by norm_num [val])

/-! ## C04 equality -/

/-- C04 is violated: two canonical zeros built through the public interface compare unequal. -/
theorem rational_eq_violated :
    ∃ r s : Rational, mk 0 5 = .ok r ∧ sub ⟨1, 3⟩ ⟨1, 3⟩ = .ok s ∧ WF r ∧ WF s ∧
      val r = val s ∧ eq r s = false := by
  refine ⟨⟨0, 5⟩, ⟨0, 9⟩, ?_, ?_, ?_, ?_, ?_, ?_⟩
  · simp [mk, reduce]
  · simp [sub, chk, intMin, intMax, mk, reduce]
  · constructor <;> simp [intMin, intMax]
  · constructor <;> simp [intMin, intMax]
  · simp [val]
  · decide

/-- C04 (partial: the numbers must be non-zero).  Full statement: for all canonical `r s`,
`eq r s = true ↔ val r = val s`; missing: it fails when both are zero, see
`rational_eq_violated`. -/
theorem rational_eq_partial (r s : Rational) (hr : WF r) (hs : WF s) (h0 : val r ≠ 0) :
    (eq r s = true ↔ val r = val s) ∧ (ne r s = true ↔ val r ≠ val s) := by
  have key : eq r s = true ↔ val r = val s := by
    constructor
    · intro h
      have : r = s := by cases r; cases s; simp_all [eq]
      rw [this]
    · intro h
      rw [val_inj hr hs h0 h]; simp [eq]
  refine ⟨key, ?_⟩
  rw [ne_eq, ← key]
  cases r; cases s; simp [eq, ne]; tauto

example : eq ⟨-3, 7⟩ ⟨-3, 7⟩ = true ∧ ne ⟨-3, 7⟩ ⟨-3, 8⟩ = true :=
  ⟨(rational_eq_partial ⟨-3, 7⟩ ⟨-3, 7⟩ (by constructor <;> decide) (by constructor <;> decide)
      (by norm_num [val])).1.2 rfl,
    (rational_eq_partial ⟨-3, 7⟩ ⟨-3, 8⟩ (by constructor <;> decide) (by constructor <;> decide)
      (by norm_num [val])).2.2 (by norm_num [val])⟩

/-- C04, sound direction for every value: numbers reported equal are equal. -/
theorem rational_eq_sound (r s : Rational) (h : eq r s = true) : val r = val s := by
  have : r = s := by cases r; cases s; simp_all [eq]
  rw [this]

example : WF ⟨-3, 7⟩ ∧ val ⟨-3, 7⟩ ≠ 0 := by
  refine ⟨⟨?_, ?_, ?_, ?_, ?_⟩, ?_⟩ <;>
    first | decide | (unfold val; norm_num) | (intro _; decide)

/-! ## C05 order -/

/-- C05: the four comparisons decide the numeric order. -/
theorem rational_order (r s : Rational) (hr : WF r) (hs : WF s)
    (h1 : Fits (r.num * s.den)) (h2 : Fits (r.den * s.num))
    (h3 : Fits (r.num * s.den - r.den * s.num)) (h4 : Fits (r.den * s.den)) :
    lt r s = .ok (decide (val r < val s)) ∧ gt r s = .ok (decide (val r > val s)) ∧
    le r s = .ok (decide (val r ≤ val s)) ∧ ge r s = .ok (decide (val r ≥ val s)) := by
  obtain ⟨t, e, w, v⟩ := rational_sub_exact r s hr hs h1 h2 h3 h4
  have dp := den_posq w
  have hn : (t.num : ℚ) = (val r - val s) * t.den := by
    rw [← v]; unfold val; have := den_ne w; field_simp
  have a1 : t.num < 0 ↔ val r < val s := by
    constructor
    · intro h
      have : (t.num : ℚ) < 0 := by exact_mod_cast h
      by_contra hc; push Not at hc; nlinarith [mul_nonneg (sub_nonneg.mpr hc) dp.le]
    · intro h
      have : (t.num : ℚ) < 0 := by rw [hn]; nlinarith [mul_pos (sub_pos.mpr h) dp]
      exact_mod_cast this
  have a2 : t.num > 0 ↔ val r > val s := by
    constructor
    · intro h
      have : (t.num : ℚ) > 0 := by exact_mod_cast h
      by_contra hc; push Not at hc; nlinarith [mul_nonneg (sub_nonneg.mpr hc) dp.le]
    · intro h
      have : (t.num : ℚ) > 0 := by rw [hn]; exact mul_pos (sub_pos.mpr h) dp
      exact_mod_cast this
  refine ⟨?_, ?_, ?_, ?_⟩
  · simp [lt, e, a1]
  · simp only [gt, e, Outcome.bind_ok, a2]
  · simp only [le, e, Outcome.bind_ok]
    congr 1; apply decide_eq_decide.mpr; rw [← not_lt, ← not_lt]; exact not_congr a2
  · simp only [ge, e, Outcome.bind_ok]
    congr 1; apply decide_eq_decide.mpr
    show 0 ≤ t.num ↔ val s ≤ val r
    rw [← not_lt, ← not_lt]; exact not_congr a1

example : Fits ((1 : Int) * 3) ∧ Fits ((2 : Int) * 1) ∧ Fits ((1 : Int) * 3 - 2 * 1) ∧
    Fits ((2 : Int) * 3) := by decide

/-! ## C06 iteration counter -/

/-- `as_integral` returns the integer when the number is one and throws otherwise. -/
theorem rational_as_integral (r : Rational) (hr : WF r) :
    (∀ n : Int, val r = n → asIntegral r = .ok n) ∧
    ((∀ n : Int, val r ≠ n) → asIntegral r = .throws .logicError) := by
  have dq := den_ne hr
  have dp := hr.den_pos
  constructor
  · intro n hn
    have e : r.num = n * r.den := by
      unfold val at hn; field_simp at hn; rw [mul_comm]; exact_mod_cast hn
    by_cases h0 : r.num = 0
    · have : n = 0 := by
        rcases Int.mul_eq_zero.mp (e ▸ h0) with h | h
        · exact h
        · omega
      simp [asIntegral, isIntegral, h0, this]
    · have hd : r.den.natAbs ∣ r.num.natAbs := by
        rw [e, Int.natAbs_mul]; exact Nat.dvd_mul_left _ _
      have h1 : Nat.gcd r.num.natAbs r.den.natAbs = r.den.natAbs :=
        Nat.gcd_eq_right hd
      have h2 := hr.coprime h0
      have h3 : r.den = 1 := by omega
      have : r.num = n := by rw [e, h3]; simp
      simp [asIntegral, isIntegral, h3, this]
  · intro h
    have n1 : r.den ≠ 1 := by
      intro h1; exact h r.num (by simp [val, h1])
    have n0 : r.num ≠ 0 := by
      intro h1; exact h 0 (by simp [val, h1])
    simp [asIntegral, isIntegral, n1, n0]

example : asIntegral ⟨42, 1⟩ = .ok 42 :=
  (rational_as_integral ⟨42, 1⟩ (by constructor <;> decide)).1 42 (by norm_num [val])

example : asIntegral ⟨3, 2⟩ = .throws .logicError :=
  (rational_as_integral ⟨3, 2⟩ (by constructor <;> decide)).2 (fun n h => by
    have h2 : (3 : ℚ) = 2 * n := by rw [← h]; norm_num [val]
    have : (3 : Int) = 2 * n := by exact_mod_cast h2
    omega)

/-- The literal `rational(1, 2)` and the weight `1 - rational(1, 2)` of the code. -/
theorem half_literals : mk 1 2 = .ok ⟨1, 2⟩ ∧ intSub 1 ⟨1, 2⟩ = .ok ⟨1, 2⟩ := by
  have w1 : WF ⟨1, 2⟩ := by constructor <;> simp [intMin, intMax]
  have w2 : WF ⟨-1, 2⟩ := by constructor <;> simp [intMin, intMax]
  refine ⟨mk_eq_of _ _ _ (by decide) (by decide) (by decide) w1 (by decide) (by norm_num [val]), ?_⟩
  have hneg : neg ⟨1, 2⟩ = .ok ⟨-1, 2⟩ := by
    have : chk (-1) = .ok (-1) := by decide
    simp only [neg, this, Outcome.bind_ok]
    exact mk_eq_of _ _ _ (by decide) (by decide) (by decide) w2 (by decide) (by norm_num [val])
  simp only [intSub, hneg, Outcome.bind_ok]
  obtain ⟨t, e, w, v⟩ := rational_add_exact ⟨-1, 2⟩ (ofInt 1) w2
    (by constructor <;> simp [ofInt, intMin, intMax]) (by decide) (by decide) (by decide) (by decide)
  rw [e]; congr 1
  refine val_inj w w1 ?_ ?_
  · rw [v]; norm_num [val, ofInt]
  · rw [v]; norm_num [val, ofInt]

/-- C06, one step: both orders take the integer `n` to exactly `n + 1`, as long as the code's
intermediate products fit in `int` (`n < 2^29 - 1`). -/
theorem iteration_step (k : Int) (hk : k = 1 ∨ k = 2) (n : Int) (h0 : 0 ≤ n)
    (hn : n < 536870911) : stepIteration k (ofInt n) = .ok (ofInt (n + 1)) := by
  have wf : ∀ m : Int, 0 ≤ m → m ≤ 536870913 → WF (ofInt m) := fun m a b =>
    ⟨by unfold ofInt intMin; simp; omega, by unfold ofInt intMax; simp; omega,
      by simp [ofInt], by simp [ofInt, intMax], by simp [ofInt]⟩
  have vi : ∀ m : Int, val (ofInt m) = m := fun m => by simp [val, ofInt]
  have addOne : ∀ m : Int, 0 ≤ m → m ≤ 536870912 →
      add (ofInt m) (ofInt 1) = .ok (ofInt (m + 1)) := by
    intro m a b
    obtain ⟨t, e, w, v⟩ := rational_add_exact (ofInt m) (ofInt 1) (wf m a (by omega))
      (wf 1 (by omega) (by omega)) (by unfold Fits ofInt; simp; omega)
      (by unfold Fits ofInt; simp) (by unfold Fits ofInt; simp; omega)
      (by unfold Fits ofInt; simp)
    rw [e]
    congr 1
    have hv : val t = ((m + 1 : Int) : ℚ) := by rw [v, vi, vi]; push_cast; ring
    refine val_inj w (wf (m + 1) (by omega) (by omega)) ?_ (by rw [hv, vi])
    rw [hv]; exact_mod_cast (by omega : m + 1 ≠ 0)
  rcases hk with rfl | rfl
  · simp only [stepIteration, if_true]; exact addOne n h0 (by omega)
  · have hb := half_literals.1
    have whalf : WF ⟨1, 2⟩ := by constructor <;> simp [intMin, intMax]
    have vhalf : val ⟨1, 2⟩ = 1 / 2 := by simp [val]
    have hw := half_literals.2
    -- multiplying an integer by one half
    have mulHalf : ∀ m : Int, 0 ≤ m → m ≤ 536870913 → ∃ t, mul (ofInt m) ⟨1, 2⟩ = .ok t ∧ WF t ∧
        val t = m / 2 ∧ 0 ≤ t.num ∧ (t.den = 1 ∧ t.num * 2 = m ∨ t.den = 2 ∧ t.num = m) := by
      intro m a b
      obtain ⟨t, e, w, v⟩ := rational_mul_exact (ofInt m) ⟨1, 2⟩ (wf m a b) whalf
        (by unfold Fits ofInt; simp; omega) (by unfold Fits ofInt; simp)
      have hv : val t = m / 2 := by rw [v, vi, vhalf]; ring
      have cr : t.num * 2 = m * t.den := by
        have := den_ne w
        have : (t.num : ℚ) * 2 = m * t.den := by
          unfold val at hv; field_simp at hv; linarith
        exact_mod_cast this
      have dp := w.den_pos
      have np : 0 ≤ t.num := by
        have : 0 ≤ m * t.den := Int.mul_nonneg a (by omega)
        omega
      refine ⟨t, e, w, hv, np, ?_⟩
      by_cases hz : t.num = 0
      · -- zero: the code keeps denominator 2
        have hm : m = 0 := by
          have : m * t.den = 0 := by omega
          rcases Int.mul_eq_zero.mp this with h | h <;> omega
        subst hm
        have : mul (ofInt 0) ⟨1, 2⟩ = .ok ⟨0, 2⟩ := by
          simp [mul, ofInt, chk, intMin, intMax, mk, reduce]
        rw [this] at e
        injection e with e
        subst e
        right; simp
      · have cop := w.coprime hz
        have hdvd : t.den.natAbs ∣ 2 := by
          have h1 : t.den.natAbs ∣ t.num.natAbs * 2 := by
            have : (t.num * 2).natAbs = (m * t.den).natAbs := by rw [cr]
            rw [Int.natAbs_mul, Int.natAbs_mul] at this
            simp at this
            rw [this]; exact Nat.dvd_mul_left _ _
          exact Nat.Coprime.dvd_of_dvd_mul_left (Nat.Coprime.symm cop) h1
        have := Nat.le_of_dvd (by omega) hdvd
        have : t.den = 1 ∨ t.den = 2 := by omega
        rcases this with h | h
        · left; rw [h] at cr; omega
        · right; rw [h] at cr; omega
    obtain ⟨l, el, wl, vl, pl, cl⟩ := mulHalf n h0 (by omega)
    obtain ⟨r, er, wr, vr, pr, cr⟩ := mulHalf (n + 2) (by omega) (by omega)
    have hs1 := addOne n h0 (by omega)
    have hs2 := addOne (n + 1) (by omega) (by omega)
    have e2 : n + 1 + 1 = n + 2 := by omega
    rw [e2] at hs2
    simp only [stepIteration]
    rw [if_neg (by decide), if_pos trivial, hb]
    simp only [Outcome.bind_ok, hs1, hs2, el, hw, er]
    obtain ⟨t, e, w, v⟩ := rational_add_exact l r wl wr
      (by unfold Fits; rcases cl with ⟨a, b⟩ | ⟨a, b⟩ <;> rcases cr with ⟨c, d⟩ | ⟨c, d⟩ <;>
            simp only [a, c] <;> omega)
      (by unfold Fits; rcases cl with ⟨a, b⟩ | ⟨a, b⟩ <;> rcases cr with ⟨c, d⟩ | ⟨c, d⟩ <;>
            simp only [a, c] <;> omega)
      (by unfold Fits; rcases cl with ⟨a, b⟩ | ⟨a, b⟩ <;> rcases cr with ⟨c, d⟩ | ⟨c, d⟩ <;>
            simp only [a, c] <;> omega)
      (by unfold Fits; rcases cl with ⟨a, b⟩ | ⟨a, b⟩ <;> rcases cr with ⟨c, d⟩ | ⟨c, d⟩ <;>
            simp only [a, c] <;> omega)
    rw [e]
    congr 1
    have hv : val t = ((n + 1 : Int) : ℚ) := by rw [v, vl, vr]; push_cast; ring
    refine val_inj w (wf (n + 1) (by omega) (by omega)) ?_ (by rw [hv, vi])
    rw [hv]; exact_mod_cast (by omega : n + 1 ≠ 0)

example : stepIteration 2 (ofInt 41) = .ok (ofInt 42) :=
  iteration_step 2 (Or.inr rfl) 41 (by decide) (by decide)

/-- C06: after any number of steps from iteration zero the counter is exactly the number of
steps, and converting it to an integer for printing does not throw. -/
theorem iteration_counter_integral (k : Int) (hk : k = 1 ∨ k = 2) (n : Nat)
    (hn : n ≤ 536870911) :
    ∃ it, runIterations k n (ofInt 0) = .ok it ∧ asIntegral it = .ok n := by
  have : runIterations k n (ofInt 0) = .ok (ofInt n) := by
    induction n with
    | zero => rfl
    | succ m ih =>
      simp only [runIterations]
      rw [ih (by omega)]
      simp only [Outcome.bind_ok]
      rw [iteration_step k hk m (by omega) (by omega)]
      push_cast; rfl
  refine ⟨_, this, ?_⟩
  simp [asIntegral, isIntegral, ofInt]

/-- C06, limit of the claim: at iteration 2^29 - 1 the second-order update overflows `int`. -/
theorem iteration_overflow_at_limit : stepIteration 2 (ofInt 536870911) = .ub := by
  have h1 : mul (ofInt 536870911) ⟨1, 2⟩ = .ok ⟨536870911, 2⟩ := by
    obtain ⟨t, e, w, v⟩ := rational_mul_exact (ofInt 536870911) ⟨1, 2⟩
      (by constructor <;> simp [ofInt, intMin, intMax])
      (by constructor <;> simp [intMin, intMax])
      (by unfold Fits ofInt; simp) (by unfold Fits ofInt; simp)
    rw [e]; congr 1
    refine val_inj w (by constructor <;> simp [intMin, intMax]) ?_ ?_
    · rw [v]; simp [val, ofInt]
    · rw [v]; simp [val, ofInt]; norm_num
  have h2 : mul (ofInt 536870913) ⟨1, 2⟩ = .ok ⟨536870913, 2⟩ := by
    obtain ⟨t, e, w, v⟩ := rational_mul_exact (ofInt 536870913) ⟨1, 2⟩
      (by constructor <;> simp [ofInt, intMin, intMax])
      (by constructor <;> simp [intMin, intMax])
      (by unfold Fits ofInt; simp) (by unfold Fits ofInt; simp)
    rw [e]; congr 1
    refine val_inj w (by constructor <;> simp [intMin, intMax]) ?_ ?_
    · rw [v]; simp [val, ofInt]
    · rw [v]; simp [val, ofInt]; norm_num
  have hb := half_literals.1
  have hw := half_literals.2
  have a1 : add (ofInt 536870911) (ofInt 1) = .ok (ofInt 536870912) := by
    have := iteration_step 1 (Or.inl rfl) 536870910 (by omega) (by omega)
    obtain ⟨t, e, w, v⟩ := rational_add_exact (ofInt 536870911) (ofInt 1)
      (by constructor <;> simp [ofInt, intMin, intMax])
      (by constructor <;> simp [ofInt, intMin, intMax])
      (by unfold Fits ofInt; simp) (by unfold Fits ofInt; simp)
      (by unfold Fits ofInt; simp) (by unfold Fits ofInt; simp)
    rw [e]; congr 1
    refine val_inj w (by constructor <;> simp [ofInt, intMin, intMax]) ?_ ?_
    · rw [v]; simp [val, ofInt]; norm_num
    · rw [v]; simp [val, ofInt]; norm_num
  have a2 : add (ofInt 536870912) (ofInt 1) = .ok (ofInt 536870913) := by
    obtain ⟨t, e, w, v⟩ := rational_add_exact (ofInt 536870912) (ofInt 1)
      (by constructor <;> simp [ofInt, intMin, intMax])
      (by constructor <;> simp [ofInt, intMin, intMax])
      (by unfold Fits ofInt; simp) (by unfold Fits ofInt; simp)
      (by unfold Fits ofInt; simp) (by unfold Fits ofInt; simp)
    rw [e]; congr 1
    refine val_inj w (by constructor <;> simp [ofInt, intMin, intMax]) ?_ ?_
    · rw [v]; simp [val, ofInt]; norm_num
    · rw [v]; simp [val, ofInt]; norm_num
  simp only [stepIteration]
  rw [if_neg (by decide), if_pos trivial, hb]
  simp only [Outcome.bind_ok, a1, a2, h1, hw, h2]
  simp [add, chk, intMin, intMax]

example : ∃ it, runIterations 2 3 (ofInt 0) = .ok it ∧ asIntegral it = .ok 3 :=
  iteration_counter_integral 2 (Or.inr rfl) 3 (by omega)

end Verif.Rational
