import Verif.Spec.SedovStep
import Verif.Lemmas.GridInverse
import Verif.Props.SedovPositive
import Verif.Props.BinarySetup

/-!
# C134: a step of the Sedov program

What makes it fail, what it depends on, that there is no unit of length, and that the gas goes on moving along the radius.
-/

namespace Verif.Sedov

open Verif.Nd

theorem indexArray_line (n : Nat) : Line (indexArray fun _ : Fin 1 => n) n (fun k => fun _ => k) := ⟨rfl, fun _ _ => rfl⟩

theorem shape_one {α : Type} {A : Arr 1 α} {n : Nat} (h : A.shape 0 = n) : A.shape = fun _ => n := by
  funext a
  rw [Fin.fin_one_eq_zero a, h]

/-- Differences read all elements. -/
theorem difference_inv {K : Type} [Sub K] {A D : Arr 1 K} {n : Nat} (h : difference 0 A = .ok D) (hs : A.shape 0 = n + 1) (hn : n + 1 < 2 ^ 64) :
    D.shape 0 = n ∧ ∀ k, k < n → ∀ v, D.get (fun _ => k) = .ok v → (∃ a, A.get (fun _ => k) = .ok a) ∧ ∃ a, A.get (fun _ => k + 1) = .ok a := by
  unfold difference at h
  obtain ⟨U, hU, h⟩ := Outcome.bind_eq_ok.1 h
  obtain ⟨L, hL, h⟩ := Outcome.bind_eq_ok.1 h
  obtain ⟨_, h2, h3⟩ := binaryOp_inv h
  obtain ⟨I, e1, hI⟩ := (indexArray_line (n + 1)).dropFirst hn
  obtain ⟨J, e2, hJ⟩ := (indexArray_line (n + 1)).dropFinal hn
  obtain ⟨u1, u2⟩ := selectAxis_reads hU (by rw [shape_one hs]; exact e1)
  obtain ⟨_, l2⟩ := selectAxis_reads hL (by rw [shape_one hs]; exact e2)
  refine ⟨by rw [h2, u1, hI.1], fun k hk v hv => ?_⟩
  obtain ⟨x, y⟩ := h3 _ _ hv
  rw [u2, hI.2 k hk, Outcome.bind_ok] at x
  rw [l2, hJ.2 k hk, Outcome.bind_ok] at y
  exact ⟨y, x⟩

theorem binaryOpO_inv {α β γ : Type} {f : α → β → Outcome γ} {A : Arr 1 α} {B : Arr 1 β} {C : Arr 1 γ} {n : Nat} {y : Nat → α} {z : Nat → β}
    (hA : Line A n y) (hB : Line B n z) (h : binaryOpO f A B = .ok C) :
    C.shape 0 = n ∧ ∀ k, k < n → C.get (fun _ => k) = f (y k) (z k) := by
  unfold binaryOpO at h
  obtain ⟨Z, hZ, e⟩ := hA.binaryOp hB Prod.mk
  rw [hZ, Outcome.map_ok] at h
  cases h
  refine ⟨e.1, fun k hk => ?_⟩
  show ((Z.get fun _ => k).bind fun x => f x.1 x.2) = _
  rw [e.2 k hk, Outcome.bind_ok]

variable {P : Type} [Inhabited P] {H : Hydro 5 ℝ P} {cfl : ℝ} {st st' : State 5 ℝ} {n : Nat} {r : Nat → ℝ} {u : Nat → Vec 5 ℝ}

theorem shells_ne (hmono : ∀ k, k < n → r k < r (k + 1)) (k : Nat) (hk : k < n) : r (k + 1) ^ 3 ≠ r k ^ 3 := by
  intro h
  have := hmono k hk
  have h3 : Odd 3 := by decide
  exact absurd (h3.pow_injective h) (by linarith)

/-- A step that succeeds has computed gas, fluxes and source terms. -/
theorem computes_of_step (h1 : 1 ≤ n) (hn : n < 2 ^ 31) (hr : Line st.vertices (n + 1) r) (hu : Line st.conserved n u)
    (hmono : ∀ k, k < n → r k < r (k + 1)) (h : nextSolution H cfl st = .ok st') : ∃ p F S, Computes H n r u p F S := by
  have hne := shells_ne hmono
  unfold nextSolution nextSolutionBy at h
  obtain ⟨D, _, h⟩ := Outcome.bind_eq_ok.1 h
  obtain ⟨drMin, _, h⟩ := Outcome.bind_eq_ok.1 h
  dsimp only at h
  obtain ⟨V, e2, h⟩ := Outcome.bind_eq_ok.1 h
  obtain ⟨dv, e3, h⟩ := Outcome.bind_eq_ok.1 h
  obtain ⟨rc, e4, h⟩ := Outcome.bind_eq_ok.1 h
  obtain ⟨d, e5, h⟩ := Outcome.bind_eq_ok.1 h
  obtain ⟨p0, e6, h⟩ := Outcome.bind_eq_ok.1 h
  obtain ⟨s, e7, h⟩ := Outcome.bind_eq_ok.1 h
  obtain ⟨s0, e8, h⟩ := Outcome.bind_eq_ok.1 h
  obtain ⟨p1, e9, h⟩ := Outcome.bind_eq_ok.1 h
  obtain ⟨p2, e10, h⟩ := Outcome.bind_eq_ok.1 h
  obtain ⟨f, e11, h⟩ := Outcome.bind_eq_ok.1 h
  obtain ⟨fa, e12, h⟩ := Outcome.bind_eq_ok.1 h
  obtain ⟨l0, e13, h⟩ := Outcome.bind_eq_ok.1 h
  obtain ⟨ls, e14, h⟩ := Outcome.bind_eq_ok.1 h
  obtain ⟨uu, e15, h⟩ := Outcome.bind_eq_ok.1 h
  obtain ⟨u1, e16, _⟩ := Outcome.bind_eq_ok.1 h
  obtain ⟨V', e2', hV⟩ := cellVolumes_line hr (by omega)
  obtain rfl := Outcome.ok.inj (e2'.symm.trans e2)
  obtain ⟨dv', e3', hdv⟩ := hV.evaluate (by omega)
  obtain rfl := Outcome.ok.inj (e3'.symm.trans e3)
  obtain ⟨rc', e4', hrc⟩ := hr.midpoint (by omega)
  obtain rfl := Outcome.ok.inj (e4'.symm.trans e4)
  obtain ⟨d', e5', hd⟩ := hu.binaryOpO hdv (f := divideVec) (x := fun k => fun a => u k a / shell r k) fun k hk => by
    unfold divideVec
    rw [if_neg (div_ne_zero (sub_ne_zero.mpr (hne k hk)) (by norm_num))]
    rfl
  obtain rfl := Outcome.ok.inj (e5'.symm.trans e5)
  have gets : ∀ {α : Type} [Inhabited α] {A B : Arr 1 α}, evaluate A = .ok B → A.shape 0 = n → ∀ k, k < n → ∃ v, A.get (fun _ => k) = .ok v :=
    fun e hA k hk => Binary.evaluate_gets e (fun a => by rw [shape_one hA]; exact h1) (fun a => by rw [shape_one hA]; show n < _; omega) _
      (fun a => by rw [shape_one hA]; exact hk)
  -- the gas
  have hex : ∀ k, ∃ q, k < n → H.recover (fun a => u k a / shell r k) = .ok q := by
    intro k
    by_cases hk : k < n
    · obtain ⟨q, hq⟩ := gets e6 hd.1 k hk
      refine ⟨q, fun _ => ?_⟩
      unfold Arr.mapO at hq
      dsimp only at hq
      rwa [hd.2 k hk, Outcome.bind_ok] at hq
    · exact ⟨default, fun h => absurd h hk⟩
  choose p hp using hex
  obtain ⟨p0', e6', hp0⟩ := (hd.mapO hp).evaluate (by omega)
  obtain rfl := Outcome.ok.inj (e6'.symm.trans e6)
  obtain ⟨p1', p2', e9', e10', hp2⟩ := extend_line H hp0 (by omega) h1
  obtain rfl := Outcome.ok.inj (e9'.symm.trans e9)
  obtain rfl := Outcome.ok.inj (e10'.symm.trans e10)
  -- sources and fluxes as far as they are read
  obtain ⟨hs1, hs2⟩ := binaryOpO_inv hp0 hrc e7
  unfold intercellFlux at e11
  obtain ⟨L, f1, e11⟩ := Outcome.bind_eq_ok.1 e11
  obtain ⟨U, f2, e11⟩ := Outcome.bind_eq_ok.1 e11
  obtain ⟨L', f1', hL⟩ := hp2.dropFinal (by omega)
  obtain ⟨U', f2', hU⟩ := hp2.dropFirst (by omega)
  obtain rfl := Outcome.ok.inj (f1'.symm.trans f1)
  obtain rfl := Outcome.ok.inj (f2'.symm.trans f2)
  obtain ⟨hf1, hf2⟩ := binaryOpO_inv hL hU e11
  obtain ⟨_, a1, a2⟩ := binaryOp_inv e15
  obtain ⟨_, b1, b2⟩ := binaryOp_inv e14
  obtain ⟨_, c1, c2⟩ := binaryOp_inv e12
  obtain ⟨_, d1, d2⟩ := binaryOp_inv e8
  obtain ⟨g1, g2⟩ := difference_inv e13 (by rw [c1]; exact hf1) (by omega)
  have hread : ∀ k, k < n → (∃ x, H.source (p k) ((r k + r (k + 1)) / 2) = .ok x) ∧
      (∃ x, f.get (fun _ => k) = .ok x) ∧ ∃ x, f.get (fun _ => k + 1) = .ok x := by
    intro k hk
    obtain ⟨v, hv⟩ := gets e16 (by rw [a1]; exact hu.1) k hk
    obtain ⟨_, y, hy⟩ := a2 _ _ hv
    obtain ⟨y', hy'⟩ := map_inv hy
    obtain ⟨⟨z, hz⟩, w, hw⟩ := b2 _ _ hy'
    obtain ⟨⟨x, hx⟩, _⟩ := d2 _ _ hw
    rw [hs2 k hk] at hx
    obtain ⟨⟨y0, h0⟩, y1, h2⟩ := g2 k hk _ hz
    exact ⟨⟨x, hx⟩, (c2 _ _ h0).1, (c2 _ _ h2).1⟩
  have hflux : ∀ k, ∃ x, k < n + 1 → f.get (fun _ => k) = .ok x := by
    intro k
    by_cases hk : k < n
    · obtain ⟨x, hx⟩ := (hread k hk).2.1
      exact ⟨x, fun _ => hx⟩
    · by_cases hk2 : k = n
      · obtain ⟨x, hx⟩ := (hread (n - 1) (by omega)).2.2
        rw [show n - 1 + 1 = k by omega] at hx
        exact ⟨x, fun _ => hx⟩
      · exact ⟨default, fun h => absurd h (by omega)⟩
  have hsrc : ∀ k, ∃ x, k < n → H.source (p k) ((r k + r (k + 1)) / 2) = .ok x := by
    intro k
    by_cases hk : k < n
    · obtain ⟨x, hx⟩ := (hread k hk).1
      exact ⟨x, fun _ => hx⟩
    · exact ⟨default, fun h => absurd h hk⟩
  choose F hF using hflux
  choose S hS using hsrc
  have hF' : ∀ k, k < n + 1 → H.riemann (if k = 0 then H.mirror (p 0) else p (min (k - 1) (n - 1))) (p (min k (n - 1))) = .ok (F k) := by
    intro k hk
    have := (hf2 k hk).symm.trans (hF k hk)
    rwa [if_neg (show ¬ k + 1 = 0 by omega), Nat.add_sub_cancel] at this
  refine ⟨p, F, S, hp, ?_, fun k hk0 hk => ?_, ?_, hS⟩
  · have := hF' 0 (by omega)
    rwa [if_pos rfl, Nat.zero_min] at this
  · have := hF' k (by omega)
    rwa [if_neg (by omega), min_eq_left (by omega), min_eq_left (by omega)] at this
  · have := hF' n (by omega)
    rwa [if_neg (by omega), min_eq_left le_rfl, min_eq_right (by omega)] at this

/-- A step from what it computes. -/
theorem step_of_computes (h1 : 1 ≤ n) (hn : n < 2 ^ 31) (hr : Line st.vertices (n + 1) r) (hu : Line st.conserved n u)
    (hmono : ∀ k, k < n → r k < r (k + 1)) {p : Nat → P} {F S : Nat → Vec 5 ℝ} (h : Computes H n r u p F S) :
    ∃ st', nextSolution H cfl st = .ok st' ∧ st'.vertices = st.vertices ∧ st'.time = st.time + cfl * (r 1 - r 0) ∧
      Line st'.conserved n (fun k a => u k a + cfl * (r 1 - r 0) * (F k a * r k ^ 2 - F (k + 1) a * r (k + 1) ^ 2 + S k a * shell r k)) := by
  obtain ⟨st', u', e, hv, ht, hu', hc, -⟩ := spherical_balance H cfl st n h1 hn r u hr hu (by norm_num) (shells_ne hmono) p F S h.gas h.inner h.faces
    h.outer h.sources
  refine ⟨st', e, hv, ht, hu'.congr rfl fun k hk => ?_⟩
  funext a
  rw [hc]
  rfl

/-- **C134.** A step succeeds if and only if the gas of every zone can be recovered, and the fluxes and source terms of this gas exist;
the zones then have gained the fluxes through their faces and their source terms. -/
theorem step_iff (h1 : 1 ≤ n) (hn : n < 2 ^ 31) (hr : Line st.vertices (n + 1) r) (hu : Line st.conserved n u)
    (hmono : ∀ k, k < n → r k < r (k + 1)) :
    ((∃ st', nextSolution H cfl st = .ok st') ↔ ∃ p F S, Computes H n r u p F S) ∧
    ∀ st' p F S, nextSolution H cfl st = .ok st' → Computes H n r u p F S → st'.vertices = st.vertices ∧
      st'.time = st.time + cfl * (r 1 - r 0) ∧
      Line st'.conserved n (fun k a => u k a + cfl * (r 1 - r 0) * (F k a * r k ^ 2 - F (k + 1) a * r (k + 1) ^ 2 + S k a * shell r k)) := by
  refine ⟨⟨fun ⟨st', h⟩ => computes_of_step h1 hn hr hu hmono h, fun ⟨p, F, S, h⟩ => ?_⟩, fun st' p F S h hc => ?_⟩
  · obtain ⟨st', e, _⟩ := step_of_computes (cfl := cfl) h1 hn hr hu hmono h
    exact ⟨st', e⟩
  · obtain ⟨st'', e, h'⟩ := step_of_computes (cfl := cfl) h1 hn hr hu hmono hc
    obtain rfl := Outcome.ok.inj (h.symm.trans e)
    exact h'

/-- What is computed is determined by the contents of the zones next to it. -/
theorem Computes.near {u u' : Nat → Vec 5 ℝ} {p p' : Nat → P} {F F' S S' : Nat → Vec 5 ℝ} (h1 : 1 ≤ n) (h : Computes H n r u p F S)
    (h' : Computes H n r u' p' F' S') {i : Nat} (hi : i < n) (ha : AgreeNear n 1 i u u') : F i = F' i ∧ F (i + 1) = F' (i + 1) ∧ S i = S' i := by
  have hp : ∀ k, k < n → k ≤ i + 1 → i ≤ k + 1 → p k = p' k := fun k hk a b => by
    have e := h.gas k hk
    rw [ha k hk a b, h'.gas k hk] at e
    exact (Outcome.ok.inj e).symm
  have pi := hp i hi (by omega) (by omega)
  refine ⟨?_, ?_, ?_⟩
  · by_cases h0 : i = 0
    · subst h0
      have e := h.inner
      rw [pi, h'.inner] at e
      exact (Outcome.ok.inj e).symm
    · have e := h.faces i (by omega) hi
      rw [pi, hp (i - 1) (by omega) (by omega) (by omega), h'.faces i (by omega) hi] at e
      exact (Outcome.ok.inj e).symm
  · by_cases h0 : i + 1 = n
    · have e := h.outer
      rw [show n - 1 = i by omega, pi] at e
      have e' := h'.outer
      rw [show n - 1 = i by omega, e] at e'
      rw [h0]
      exact Outcome.ok.inj e'
    · have e := h.faces (i + 1) (by omega) (by omega)
      rw [Nat.add_sub_cancel, pi, hp (i + 1) (by omega) (by omega) (by omega)] at e
      have e' := h'.faces (i + 1) (by omega) (by omega)
      rw [Nat.add_sub_cancel, e] at e'
      exact Outcome.ok.inj e'
  · have e := h.sources i hi
    rw [pi, h'.sources i hi] at e
    exact (Outcome.ok.inj e).symm

/-- **C134.** The new content of a zone depends on its own content and that of its two neighbours only. -/
theorem step_local {st2 st2' : State 5 ℝ} {u u' : Nat → Vec 5 ℝ} (h1 : 1 ≤ n) (hn : n < 2 ^ 31) (hmono : ∀ k, k < n → r k < r (k + 1))
    (hr : Line st.vertices (n + 1) r) (hu : Line st.conserved n u) (hr' : Line st2.vertices (n + 1) r) (hu' : Line st2.conserved n u')
    (h : nextSolution H cfl st = .ok st') (h' : nextSolution H cfl st2 = .ok st2') :
    Line st'.vertices (n + 1) r ∧ Line st2'.vertices (n + 1) r ∧ ∃ v v', Line st'.conserved n v ∧ Line st2'.conserved n v' ∧
      ∀ d i, AgreeNear n (d + 1) i u u' → AgreeNear n d i v v' := by
  obtain ⟨p, F, S, hc⟩ := computes_of_step h1 hn hr hu hmono h
  obtain ⟨p', F', S', hc'⟩ := computes_of_step h1 hn hr' hu' hmono h'
  obtain ⟨e1, _, e2⟩ := (step_iff h1 hn hr hu hmono).2 _ _ _ _ h hc
  obtain ⟨e1', _, e2'⟩ := (step_iff h1 hn hr' hu' hmono).2 _ _ _ _ h' hc'
  refine ⟨e1 ▸ hr, e1' ▸ hr', _, _, e2, e2', fun d i ha k hk a b => ?_⟩
  obtain ⟨f1, f2, f3⟩ := hc.near h1 hc' hk fun l hl a' b' => ha l hl (by omega) (by omega)
  dsimp only
  rw [ha k hk (by omega) (by omega), f1, f2, f3]

/-- **C134.** After `N` steps a zone depends on zones that are at most `N` zones away: in two runs that start alike there, it has the same
content, however the gas elsewhere explodes. -/
theorem run_local (N : Nat) {st2 st2' : State 5 ℝ} {u u' : Nat → Vec 5 ℝ} (h1 : 1 ≤ n) (hn : n < 2 ^ 31) (hmono : ∀ k, k < n → r k < r (k + 1))
    (hr : Line st.vertices (n + 1) r) (hu : Line st.conserved n u) (hr' : Line st2.vertices (n + 1) r) (hu' : Line st2.conserved n u')
    (h : afterSteps H cfl N st = .ok st') (h' : afterSteps H cfl N st2 = .ok st2') :
    Line st'.vertices (n + 1) r ∧ Line st2'.vertices (n + 1) r ∧ ∃ v v', Line st'.conserved n v ∧ Line st2'.conserved n v' ∧
      ∀ d i, AgreeNear n (d + N) i u u' → AgreeNear n d i v v' := by
  induction N generalizing st' st2' with
  | zero =>
    cases h
    cases h'
    exact ⟨hr, hr', u, u', hu, hu', fun d i ha => ha⟩
  | succ N ih =>
    obtain ⟨s1, e1, e2⟩ := Outcome.bind_eq_ok.1 h
    obtain ⟨s2, e1', e2'⟩ := Outcome.bind_eq_ok.1 h'
    obtain ⟨a1, a2, v, v', a3, a4, a5⟩ := ih e1 e1'
    obtain ⟨b1, b2, w, w', b3, b4, b5⟩ := step_local h1 hn hmono a1 a3 a2 a4 e2 e2'
    exact ⟨b1, b2, w, w', b3, b4, fun d i ha => b5 d i (a5 (d + 1) i (by rwa [show d + 1 + N = d + (N + 1) by omega]))⟩

/-! ### No unit of length -/

theorem shell_stretched (c : ℝ) (r : Nat → ℝ) (k : Nat) : shell (fun k => c * r k) k = c ^ 3 * shell r k := by
  unfold shell
  ring

theorem line_unique {α : Type} {A : Arr 1 α} {n : Nat} {y z : Nat → α} (h : Line A n y) (h' : Line A n z) : ∀ k, k < n → y k = z k :=
  fun k hk => Outcome.ok.inj ((h.2 k hk).symm.trans (h'.2 k hk))

/-- A step in another unit of length, for source terms that fall off like the inverse radius. -/
theorem step_stretched {c : ℝ} (hc : 0 < c) (hsource : ∀ p x s, H.source p x = .ok s → H.source p (c * x) = .ok fun a => s a / c)
    (h1 : 1 ≤ n) (hn : n < 2 ^ 31) {st2 : State 5 ℝ} (hr : Line st.vertices (n + 1) r) (hmono : ∀ k, k < n → r k < r (k + 1))
    (hs : Stretched c n st st2) (h : nextSolution H cfl st = .ok st') : ∃ st2', nextSolution H cfl st2 = .ok st2' ∧ Stretched c n st' st2' := by
  obtain ⟨ht, r', u, hr', hu, hr2, hu2⟩ := hs
  have hrr := line_unique hr' hr
  have hr2' : Line st2.vertices (n + 1) (fun k => c * r k) := hr2.congr rfl fun k hk => by rw [hrr k hk]
  obtain ⟨p, F, S, hC⟩ := computes_of_step h1 hn hr hu hmono h
  obtain ⟨e1, e2, e3⟩ := (step_iff h1 hn hr hu hmono).2 _ _ _ _ h hC
  have hm2 : ∀ k, k < n → c * r k < c * r (k + 1) := fun k hk => mul_lt_mul_of_pos_left (hmono k hk) hc
  have hC2 : Computes H n (fun k => c * r k) (fun k a => c ^ 3 * u k a) p F (fun k a => S k a / c) := by
    refine ⟨fun k hk => ?_, hC.inner, hC.faces, hC.outer, fun k hk => ?_⟩
    · rw [← hC.gas k hk]
      congr 1
      funext a
      rw [shell_stretched, mul_div_mul_left _ _ (pow_pos hc 3).ne']
    · have := hsource _ _ _ (hC.sources k hk)
      rw [← this]
      congr 1
      ring
  obtain ⟨st2', f1, f2, f3, f4⟩ := step_of_computes (cfl := cfl) h1 hn hr2' hu2 hm2 hC2
  refine ⟨st2', f1, ?_, r, _, e1 ▸ hr, e3, f2 ▸ hr2', f4.congr rfl fun k hk => ?_⟩
  · rw [f3, e2, ht]
    ring
  · funext a
    rw [shell_stretched]
    field_simp

/-- **C134.** The same explosion in another unit of length (and time) goes on the same, over any number of steps. -/
theorem run_stretched (N : Nat) {c : ℝ} (hc : 0 < c) (hsource : ∀ p x s, H.source p x = .ok s → H.source p (c * x) = .ok fun a => s a / c)
    (h1 : 1 ≤ n) (hn : n < 2 ^ 31) {st2 : State 5 ℝ} (hr : Line st.vertices (n + 1) r) (hmono : ∀ k, k < n → r k < r (k + 1))
    (hs : Stretched c n st st2) (h : afterSteps H cfl N st = .ok st') :
    Line st'.vertices (n + 1) r ∧ ∃ st2', afterSteps H cfl N st2 = .ok st2' ∧ Stretched c n st' st2' := by
  induction N generalizing st' with
  | zero =>
    cases h
    exact ⟨hr, st2, rfl, hs⟩
  | succ N ih =>
    obtain ⟨s1, e1, e2⟩ := Outcome.bind_eq_ok.1 h
    obtain ⟨a1, s2, a2, a3⟩ := ih e1
    obtain ⟨s2', b1, b2⟩ := step_stretched hc hsource h1 hn a1 hmono a3 e2
    obtain ⟨_, u, _, hu, _⟩ := a3.2
    obtain ⟨p, F, S, hC⟩ := computes_of_step h1 hn a1 hu hmono e2
    refine ⟨((step_iff h1 hn a1 hu hmono).2 _ _ _ _ e2 hC).1 ▸ a1, s2', ?_, b2⟩
    rw [afterSteps, a2, Outcome.bind_ok, b1]

/-- The source terms of both gases do so. -/
theorem sources_stretched (g c : ℝ) (hc : 0 < c) :
    (∀ p x s, (newtonian g).source p x = .ok s → (newtonian g).source p (c * x) = .ok fun a => s a / c) ∧
    ∀ p x s, (relativistic g).source p x = .ok s → (relativistic g).source p (c * x) = .ok fun a => s a / c := by
  constructor <;> intro p x s h
  · simp only [newtonian] at h ⊢
    split at h
    · cases h
    · rename_i hx
      cases h
      rw [if_neg (mul_ne_zero hc.ne' hx)]
      congr 1
      funext a
      fin_cases a <;> simp [Euler.sphericalSourceRadial]
      rw [div_div, mul_comm x]
  · simp only [relativistic] at h ⊢
    split at h
    · cases h
    · rename_i hx
      cases h
      rw [if_neg (mul_ne_zero hc.ne' hx)]
      congr 1
      funext a
      fin_cases a <;> simp [Srhd.sphericalSourceRadial]
      rw [div_div, mul_comm x]

/-- **C134.** So both programs know no unit of length. -/
theorem gas_run_stretched (g : ℝ) (H : Hydro 5 ℝ (Fin 5 → ℝ)) (hH : H = newtonian g ∨ H = relativistic g) (N : Nat) {c : ℝ} (hc : 0 < c)
    {st st' : State 5 ℝ} {n : Nat} {r : Nat → ℝ} (h1 : 1 ≤ n) (hn : n < 2 ^ 31) {st2 : State 5 ℝ} (hr : Line st.vertices (n + 1) r)
    (hmono : ∀ k, k < n → r k < r (k + 1)) (hs : Stretched c n st st2) (h : afterSteps H cfl N st = .ok st') :
    ∃ st2', afterSteps H cfl N st2 = .ok st2' ∧ Stretched c n st' st2' := by
  rcases hH with rfl | rfl
  · exact (run_stretched N hc (sources_stretched g c hc).1 h1 hn hr hmono hs h).2
  · exact (run_stretched N hc (sources_stretched g c hc).2 h1 hn hr hmono hs h).2

/-! ### Radial motion -/

/-- A gas that has no transverse fluxes and sources if it has no transverse momentum. -/
theorem run_transverse (H : Hydro 5 ℝ (Fin 5 → ℝ)) (N : Nat) {st st' : State 5 ℝ} {n : Nat} {r : Nat → ℝ} {u : Nat → Vec 5 ℝ}
    (hT : ∀ U q, U 2 = 0 → U 3 = 0 → H.recover U = .ok q → q 2 = 0 ∧ q 3 = 0)
    (hmir : ∀ q : Fin 5 → ℝ, q 2 = 0 ∧ q 3 = 0 → H.mirror q 2 = 0 ∧ H.mirror q 3 = 0)
    (hF : ∀ a b x, (a 2 = 0 ∧ a 3 = 0) → (b 2 = 0 ∧ b 3 = 0) → H.riemann a b = .ok x → x 2 = 0 ∧ x 3 = 0)
    (hS : ∀ a y x, H.source a y = .ok x → x 2 = 0 ∧ x 3 = 0)
    (h1 : 1 ≤ n) (hn : n < 2 ^ 31) (hr : Line st.vertices (n + 1) r) (hu : Line st.conserved n u) (hmono : ∀ k, k < n → r k < r (k + 1))
    (h0 : ∀ k, k < n → u k 2 = 0 ∧ u k 3 = 0) (h : afterSteps H cfl N st = .ok st') :
    Line st'.vertices (n + 1) r ∧ ∃ u', Line st'.conserved n u' ∧ ∀ k, k < n → u' k 2 = 0 ∧ u' k 3 = 0 := by
  induction N generalizing st' with
  | zero =>
    cases h
    exact ⟨hr, u, hu, h0⟩
  | succ N ih =>
    obtain ⟨s1, e1, e2⟩ := Outcome.bind_eq_ok.1 h
    obtain ⟨a1, v, a2, a3⟩ := ih e1
    obtain ⟨p, F, S, hC⟩ := computes_of_step h1 hn a1 a2 hmono e2
    obtain ⟨b1, _, b3⟩ := (step_iff h1 hn a1 a2 hmono).2 _ _ _ _ e2 hC
    refine ⟨b1 ▸ a1, _, b3, fun k hk => ?_⟩
    have hp : ∀ k, k < n → p k 2 = 0 ∧ p k 3 = 0 := fun k hk =>
      hT _ _ (by rw [(a3 k hk).1, zero_div]) (by rw [(a3 k hk).2, zero_div]) (hC.gas k hk)
    have hf : ∀ k, k < n + 1 → F k 2 = 0 ∧ F k 3 = 0 := by
      intro k hk
      rcases Nat.eq_zero_or_pos k with rfl | hk0
      · exact hF _ _ _ (hmir _ (hp 0 h1)) (hp 0 h1) hC.inner
      · by_cases hkn : k = n
        · rw [hkn]
          exact hF _ _ _ (hp (n - 1) (by omega)) (hp (n - 1) (by omega)) hC.outer
        · exact hF _ _ _ (hp (k - 1) (by omega)) (hp k (by omega)) (hC.faces k hk0 (by omega))
    obtain ⟨c1, c2⟩ := hS _ _ _ (hC.sources k hk)
    obtain ⟨d1, d2⟩ := hf k (by omega)
    obtain ⟨e1, e2⟩ := hf (k + 1) (by omega)
    rw [c1, c2, d1, d2, e1, e2, (a3 k hk).1, (a3 k hk).2]
    constructor <;> ring

/-- **C134.** Gas that has no momentum across the radius gets none, in both programs. -/
theorem stays_radial (g : ℝ) (H : Hydro 5 ℝ (Fin 5 → ℝ)) (hH : H = newtonian g ∨ H = relativistic g) (N : Nat) {st st' : State 5 ℝ} {n : Nat}
    {r : Nat → ℝ} {u : Nat → Vec 5 ℝ} (h1 : 1 ≤ n) (hn : n < 2 ^ 31) (hr : Line st.vertices (n + 1) r) (hu : Line st.conserved n u)
    (hmono : ∀ k, k < n → r k < r (k + 1)) (h0 : ∀ k, k < n → u k 2 = 0 ∧ u k 3 = 0) (h : afterSteps H cfl N st = .ok st') :
    Line st'.vertices (n + 1) r ∧ ∃ u', Line st'.conserved n u' ∧ ∀ k, k < n → u' k 2 = 0 ∧ u' k 3 = 0 := by
  rcases hH with rfl | rfl
  · refine run_transverse (newtonian g) N ?_ ?_ ?_ ?_ h1 hn hr hu hmono h0 h
    · intro U q h2 h3 e
      simp only [newtonian] at e
      split at e
      · cases e
      · cases e
        simp only [Euler.recover, Euler.at2, Euler.at3, h2, h3, zero_div, and_self]
    · intro q hq
      exact ⟨(mirror_at q).2.2.1.trans hq.1, (mirror_at q).2.2.2.1.trans hq.2⟩
    · intro a b x ha hb e
      simp only [newtonian] at e
      split at e
      · cases e
        exact newtonian_transverse ha hb g
      · cases e
    · intro a y x e
      simp only [newtonian] at e
      split at e
      · cases e
      · cases e
        exact ⟨rfl, rfl⟩
  · refine run_transverse (relativistic g) N ?_ ?_ ?_ ?_ h1 hn hr hu hmono h0 h
    · intro U q h2 h3 e
      exact (recover_radial e h2 h3).2.2
    · intro q hq
      exact ⟨(mirror_at q).2.2.1.trans hq.1, (mirror_at q).2.2.2.1.trans hq.2⟩
    · intro a b x ha hb e
      simp only [relativistic] at e
      split at e
      · cases e
        exact relativistic_transverse ha hb g
      · cases e
    · intro a y x e
      simp only [relativistic] at e
      split at e
      · cases e
      · cases e
        exact ⟨rfl, rfl⟩

/-- **C134.** A step of the Newtonian program succeeds if and only if every zone has positive mass and positive internal energy. -/
theorem newtonian_step_iff (g : ℝ) (hg : 1 < g) {st : State 5 ℝ} {n : Nat} {r : Nat → ℝ} {u : Nat → Vec 5 ℝ} (h1 : 1 ≤ n) (hn : n < 2 ^ 31)
    (hr : Line st.vertices (n + 1) r) (hu : Line st.conserved n u) (h0 : 0 < r 0) (hmono : ∀ k, k < n → r k < r (k + 1)) :
    (∃ st', nextSolution (newtonian g) cfl st = .ok st') ↔
      ∀ k, k < n → 0 < u k 0 ∧ (u k 1 ^ 2 + u k 2 ^ 2 + u k 3 ^ 2) / (2 * u k 0) < u k 4 := by
  have hpos : ∀ k, k < n + 1 → 0 < r k := by
    intro k
    induction k with
    | zero => exact fun _ => h0
    | succ k ih => exact fun hk => (ih (by omega)).trans (hmono k (by omega))
  have hsh : ∀ k, k < n → 0 < shell r k := by
    intro k hk
    have := pow_lt_pow_left₀ (hmono k hk) (hpos k (by omega)).le (show (3 : ℕ) ≠ 0 by norm_num)
    unfold shell
    linarith
  have hd : ∀ k, k < n → ∀ x : ℝ, 0 < x / shell r k ↔ 0 < x := fun k hk x => by
    rw [lt_div_iff₀ (hsh k hk), zero_mul]
  have hpress : ∀ k, k < n → 0 < u k 0 → (0 < Euler.recover (fun a => u k a / shell r k) g 0 4 ↔
      (u k 1 ^ 2 + u k 2 ^ 2 + u k 3 ^ 2) / (2 * u k 0) < u k 4) := by
    intro k hk hu0
    have hs := hsh k hk
    have e : Euler.recover (fun a => u k a / shell r k) g 0 4 =
        (u k 4 - (u k 1 ^ 2 + u k 2 ^ 2 + u k 3 ^ 2) / (2 * u k 0)) / shell r k * (g - 1) := by
      simp only [Euler.recover, Euler.at4, Euler.floored, lt_irrefl, and_false, if_false]
      field_simp
    rw [e, mul_pos_iff_of_pos_right (by linarith), hd k hk, sub_pos]
  rw [(step_iff h1 hn hr hu hmono).1]
  constructor
  · rintro ⟨p, F, S, hC⟩ k hk
    have hg := hC.gas k hk
    simp only [newtonian] at hg
    split at hg
    · cases hg
    · have hp := Outcome.ok.inj hg
      have : 0 < p k 0 ∧ 0 < p k 4 := by
        by_cases hkn : k + 1 = n
        · have e := hC.outer
          rw [show n - 1 = k by omega] at e
          simp only [newtonian] at e
          split at e
          · rename_i h
            exact ⟨h.1, h.2.1⟩
          · cases e
        · have e := hC.faces (k + 1) (by omega) (by omega)
          rw [Nat.add_sub_cancel] at e
          simp only [newtonian] at e
          split at e
          · rename_i h
            exact ⟨h.1, h.2.1⟩
          · cases e
      rw [← hp] at this
      have hu0 := (hd k hk _).1 this.1
      exact ⟨hu0, (hpress k hk hu0).1 this.2⟩
  · intro h
    refine ⟨fun k => Euler.recover (fun a => u k a / shell r k) g 0, fun k => if k = 0 then Euler.hlle
        (Function.update (Euler.recover (fun a => u 0 a / shell r 0) g 0) 1 (-Euler.recover (fun a => u 0 a / shell r 0) g 0 1))
        (Euler.recover (fun a => u 0 a / shell r 0) g 0) ⟨1, 0, 0⟩ g
      else Euler.hlle (Euler.recover (fun a => u (k - 1) a / shell r (k - 1)) g 0)
        (Euler.recover (fun a => u (min k (n - 1)) a / shell r (min k (n - 1))) g 0) ⟨1, 0, 0⟩ g,
      fun k => Euler.sphericalSourceRadial (Euler.recover (fun a => u k a / shell r k) g 0) ((r k + r (k + 1)) / 2), ?_⟩
    have gas : ∀ k, k < n → 0 < Euler.recover (fun a => u k a / shell r k) g 0 0 ∧ 0 < Euler.recover (fun a => u k a / shell r k) g 0 4 :=
      fun k hk => ⟨(hd k hk _).2 (h k hk).1, (hpress k hk (h k hk).1).2 (h k hk).2⟩
    have flux : ∀ a b : Euler.Vec, 0 < a 0 ∧ 0 < a 4 → 0 < b 0 ∧ 0 < b 4 → (newtonian g).riemann a b = .ok (Euler.hlle a b ⟨1, 0, 0⟩ g) :=
      fun a b ha hb => if_pos ⟨ha.1, ha.2, hb.1, hb.2⟩
    refine ⟨fun k hk => ?_, ?_, fun k hk0 hk => ?_, ?_, fun k hk => ?_⟩
    · exact if_neg ((hd k hk _).2 (h k hk).1).ne'
    · rw [if_pos rfl]
      refine flux _ _ ?_ (gas 0 h1)
      obtain ⟨m0, _, _, _, m4⟩ := mirror_at (Euler.recover (fun a => u 0 a / shell r 0) g 0)
      exact ⟨lt_of_lt_of_eq (gas 0 h1).1 m0.symm, lt_of_lt_of_eq (gas 0 h1).2 m4.symm⟩
    · rw [if_neg (by omega), min_eq_left (by omega)]
      exact flux _ _ (gas _ (by omega)) (gas _ hk)
    · rw [if_neg (by omega), min_eq_right (by omega)]
      exact flux _ _ (gas _ (by omega)) (gas _ (by omega))
    · refine if_neg ?_
      have a := hpos k (by omega)
      have b := hpos (k + 1) (by omega)
      linarith

/-! ### Examples -/

/-- Seven zones of moving gas, of density `d`. -/
noncomputable def sevenZones (d : Nat → ℝ) : State 5 ℝ :=
  gasState (fun P => Euler.toConserved P (5 / 3)) 7 (fun k => (27 / 25 : ℝ) ^ k) fun k => ![d k, 1 / 4, 0, 0, 1 / 10]

theorem sevenZones_mono (k : Nat) : (27 / 25 : ℝ) ^ k < (27 / 25) ^ (k + 1) := by
  rw [pow_succ]
  have : (0 : ℝ) < (27 / 25) ^ k := by positivity
  linarith

theorem sevenZones_lines (d : Nat → ℝ) : Line (sevenZones d).vertices 8 (fun k => (27 / 25 : ℝ) ^ k) ∧
    Line (sevenZones d).conserved 7
      (fun k a => shell (fun k => (27 / 25 : ℝ) ^ k) k * Euler.toConserved ![d k, 1 / 4, 0, 0, 1 / 10] (5 / 3) a) :=
  ⟨⟨rfl, fun _ _ => rfl⟩, ⟨rfl, fun _ _ => rfl⟩⟩

theorem sevenZones_step (d : Nat → ℝ) (hd : ∀ k, 0 < d k) : ∃ st', nextSolution (newtonian (5 / 3)) (2 / 5) (sevenZones d) = .ok st' := by
  obtain ⟨hv, hu⟩ := sevenZones_lines d
  refine (newtonian_step_iff (5 / 3) (by norm_num) (by norm_num) (by norm_num) hv hu (by norm_num) fun k _ => sevenZones_mono k).2 fun k _ => ?_
  have hs : 0 < shell (fun k => (27 / 25 : ℝ) ^ k) k := by
    have := pow_lt_pow_left₀ (sevenZones_mono k) (by positivity) (show (3 : ℕ) ≠ 0 by norm_num)
    unfold shell
    linarith
  have hk := hd k
  simp only [Euler.toConserved, Euler.velocitySquared, Euler.at0, Euler.at1, Euler.at2, Euler.at3, Euler.at4]
  refine ⟨by positivity, ?_⟩
  rw [div_lt_iff₀ (by positivity)]
  have : 0 < shell (fun k => (27 / 25 : ℝ) ^ k) k ^ 2 * d k := by positivity
  nlinarith

theorem one_step {g : ℝ} {st st' : State 5 ℝ} (h : nextSolution (newtonian g) (2 / 5) st = .ok st') :
    afterSteps (newtonian g) (2 / 5) 1 st = .ok st' := by
  rw [afterSteps, afterSteps, Outcome.bind_ok, h]

/-- Two explosions that differ in the last zone only: after a step, zones 0 to 4 agree. -/
example : ∃ st1 st2 v v', nextSolution (newtonian (5 / 3)) (2 / 5) (sevenZones fun _ => 1) = .ok st1 ∧
    nextSolution (newtonian (5 / 3)) (2 / 5) (sevenZones fun k => if k = 6 then 1000 else 1) = .ok st2 ∧
    Line st1.conserved 7 v ∧ Line st2.conserved 7 v' ∧ ∀ i, i < 5 → v i = v' i := by
  obtain ⟨st1, e1⟩ := sevenZones_step (fun _ => 1) fun _ => one_pos
  obtain ⟨st2, e2⟩ := sevenZones_step (fun k => if k = 6 then 1000 else 1) fun k => by split_ifs <;> norm_num
  obtain ⟨_, _, v, v', h1, h2, h3⟩ := step_local (by norm_num) (by norm_num) (fun k _ => sevenZones_mono k) (sevenZones_lines _).1 (sevenZones_lines _).2
    (sevenZones_lines _).1 (sevenZones_lines _).2 e1 e2
  refine ⟨st1, st2, v, v', e1, e2, h1, h2, fun i hi => h3 0 i (fun k hk a b => ?_) i (by omega) (by omega) (by omega)⟩
  dsimp only
  rw [if_neg (by omega)]

/-- The same by `run_local`, for a run of one step. -/
example : ∃ st1 st2 v v', afterSteps (newtonian (5 / 3)) (2 / 5) 1 (sevenZones fun _ => 1) = .ok st1 ∧
    afterSteps (newtonian (5 / 3)) (2 / 5) 1 (sevenZones fun k => if k = 6 then 1000 else 1) = .ok st2 ∧
    Line st1.conserved 7 v ∧ Line st2.conserved 7 v' ∧ ∀ i, i < 6 → v i = v' i ∨ i = 5 := by
  obtain ⟨st1, e1⟩ := sevenZones_step (fun _ => 1) fun _ => one_pos
  obtain ⟨st2, e2⟩ := sevenZones_step (fun k => if k = 6 then 1000 else 1) fun k => by split_ifs <;> norm_num
  obtain ⟨_, _, v, v', h1, h2, h3⟩ := run_local 1 (by norm_num) (by norm_num) (fun k _ => sevenZones_mono k) (sevenZones_lines _).1 (sevenZones_lines _).2
    (sevenZones_lines _).1 (sevenZones_lines _).2 (one_step e1) (one_step e2)
  refine ⟨st1, st2, v, v', one_step e1, one_step e2, h1, h2, fun i hi => ?_⟩
  by_cases hi5 : i = 5
  · exact .inr hi5
  · refine .inl (h3 0 i (fun k hk a b => ?_) i (by omega) (by omega) (by omega))
    dsimp only
    rw [if_neg (by omega)]

/-- Zones of radii a thousand times as large. -/
example : ∃ st' st2 st2', nextSolution (newtonian (5 / 3)) (2 / 5) (sevenZones fun k => 1 + k) = .ok st' ∧
    Stretched 1000 7 (sevenZones fun k => 1 + k) st2 ∧ nextSolution (newtonian (5 / 3)) (2 / 5) st2 = .ok st2' ∧ Stretched 1000 7 st' st2' := by
  obtain ⟨st', e⟩ := sevenZones_step (fun k => 1 + k) fun k => by positivity
  have hs : Stretched 1000 7 (sevenZones fun k => 1 + k) ⟨0, ⟨fun _ => 8, fun i => .ok (1000 * (27 / 25 : ℝ) ^ (i 0))⟩, ⟨fun _ => 7, fun i => .ok fun a =>
      1000 ^ 3 * (shell (fun k => (27 / 25 : ℝ) ^ k) (i 0) * Euler.toConserved ![1 + (i 0 : ℝ), 1 / 4, 0, 0, 1 / 10] (5 / 3) a)⟩⟩ :=
    ⟨(mul_zero _).symm, _, _, (sevenZones_lines _).1, (sevenZones_lines _).2, ⟨rfl, fun _ _ => rfl⟩, ⟨rfl, fun _ _ => rfl⟩⟩
  obtain ⟨st2', h, h'⟩ := gas_run_stretched (5 / 3) _ (.inl rfl) 1 (by norm_num) (by norm_num) (by norm_num)
    (sevenZones_lines _).1 (fun k _ => sevenZones_mono k) hs (one_step e)
  rw [afterSteps, afterSteps, Outcome.bind_ok] at h
  exact ⟨st', _, st2', e, hs, h, h'⟩

/-- The gas of these zones moves along the radius. -/
example : ∃ st' u', nextSolution (newtonian (5 / 3)) (2 / 5) (sevenZones fun k => 1 + k) = .ok st' ∧ Line st'.conserved 7 u' ∧
    ∀ k, k < 7 → u' k 2 = 0 ∧ u' k 3 = 0 := by
  obtain ⟨st', e⟩ := sevenZones_step (fun k => 1 + k) fun k => by positivity
  obtain ⟨_, u', h, h'⟩ := stays_radial (5 / 3) _ (.inl rfl) 1 (by norm_num) (by norm_num) (sevenZones_lines _).1 (sevenZones_lines _).2
    (fun k _ => sevenZones_mono k) (fun k _ => by
      simp only [Euler.toConserved, Euler.at0, Euler.at2, Euler.at3]
      constructor <;> ring) (one_step e)
  exact ⟨st', u', e, h, h'⟩

/-- Gas without mass in the last zone: there is no step. -/
example : ¬ ∃ st', nextSolution (newtonian (5 / 3)) (2 / 5) (sevenZones fun k => if k = 6 then 0 else 1) = .ok st' := by
  obtain ⟨hv, hu⟩ := sevenZones_lines fun k => if k = 6 then 0 else 1
  rw [newtonian_step_iff (5 / 3) (by norm_num) (by norm_num) (by norm_num) hv hu (by norm_num) fun k _ => sevenZones_mono k]
  intro h
  have := (h 6 (by norm_num)).1
  simp [Euler.toConserved] at this

end Verif.Sedov
