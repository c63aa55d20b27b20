import Verif.Props.SedovStep

/-!
# A step of the Sedov program in any arithmetic
-/

namespace Verif.Sedov

open Verif.Nd

variable {K P : Type} [Add K] [Sub K] [Mul K] [Neg K] [Inhabited K] [Inhabited P] {m n : Nat} {volumes : Arr 1 K → Outcome (Arr 1 K)} {half : K}
  {over : Vec m K → K → Outcome (Vec m K)} {H : Hydro m K P} {cfl : K} {st st' : State m K} {r V : Nat → K} {u : Nat → Vec m K}

/-- A step that succeeds has computed gas, fluxes and source terms, and has added them up. -/
theorem stepBy_inv (h1 : 1 ≤ n) (hn : n < 2 ^ 31) (hr : Line st.vertices (n + 1) r) (hu : Line st.conserved n u)
    (hV : ∃ W, volumes st.vertices = .ok W ∧ Line W n V) (h : nextSolutionBy volumes half over H cfl st = .ok st') :
    ∃ (x : Nat → Vec m K) (p : Nat → P) (F S : Nat → Vec m K), (∀ k, k < n → over (u k) (V k) = .ok (x k)) ∧ (∀ k, k < n → H.recover (x k) = .ok (p k)) ∧
      H.riemann (H.mirror (p 0)) (p 0) = .ok (F 0) ∧ (∀ k, 0 < k → k < n → H.riemann (p (k - 1)) (p k) = .ok (F k)) ∧
      H.riemann (p (n - 1)) (p (n - 1)) = .ok (F n) ∧ (∀ k, k < n → H.source (p k) ((r k + r (k + 1)) * half) = .ok (S k)) ∧
      st'.vertices = st.vertices ∧ st'.time = st.time + cfl * (r 1 - r 0) ∧
      Line st'.conserved n (fun k => u k + scale (scale (F (k + 1)) (-(r (k + 1) * r (k + 1))) - scale (F k) (-(r k * r k)) + scale (S k) (V k))
        (cfl * (r 1 - r 0))) := by
  unfold nextSolutionBy at h
  obtain ⟨D, e0, h⟩ := Outcome.bind_eq_ok.1 h
  obtain ⟨drMin, e1, h⟩ := Outcome.bind_eq_ok.1 h
  dsimp only at h
  obtain ⟨W, e2, h⟩ := Outcome.bind_eq_ok.1 h
  obtain ⟨dv, e3, h⟩ := Outcome.bind_eq_ok.1 h
  obtain ⟨rc, e4, h⟩ := Outcome.bind_eq_ok.1 h
  obtain ⟨d, e5, h⟩ := Outcome.bind_eq_ok.1 h
  obtain ⟨p0, e6, h⟩ := Outcome.bind_eq_ok.1 h
  obtain ⟨s, e7, h⟩ := Outcome.bind_eq_ok.1 h
  obtain ⟨s0, e8, h⟩ := Outcome.bind_eq_ok.1 h
  obtain ⟨p1, e9, h⟩ := Outcome.bind_eq_ok.1 h
  obtain ⟨p2, e10, h⟩ := Outcome.bind_eq_ok.1 h
  obtain ⟨f, e11, h⟩ := Outcome.bind_eq_ok.1 h
  obtain ⟨fa, e12, h⟩ := Outcome.bind_eq_ok.1 h
  obtain ⟨l0, e13, h⟩ := Outcome.bind_eq_ok.1 h
  obtain ⟨ls, e14, h⟩ := Outcome.bind_eq_ok.1 h
  obtain ⟨uu, e15, h⟩ := Outcome.bind_eq_ok.1 h
  obtain ⟨u1, e16, h⟩ := Outcome.bind_eq_ok.1 h
  cases h
  obtain ⟨D', e0', hD⟩ := hr.difference (by omega)
  obtain rfl := Outcome.ok.inj (e0'.symm.trans e0)
  obtain rfl := Outcome.ok.inj (e1.symm.trans (hD.2 0 (by omega)))
  obtain ⟨W', e2', hW⟩ := hV
  obtain rfl := Outcome.ok.inj (e2'.symm.trans e2)
  obtain ⟨dv', e3', hdv⟩ := hW.evaluate (by omega)
  obtain rfl := Outcome.ok.inj (e3'.symm.trans e3)
  obtain ⟨rc', e4', hrc⟩ := hr.midpointBy (by omega) half
  obtain rfl := Outcome.ok.inj (e4'.symm.trans e4)
  obtain ⟨hd1, hd2⟩ := binaryOpO_inv hu hdv e5
  have gets : ∀ {α : Type} [Inhabited α] {A B : Arr 1 α}, evaluate A = .ok B → A.shape 0 = n → ∀ k, k < n → ∃ v, A.get (fun _ => k) = .ok v :=
    fun e hA k hk => Binary.evaluate_gets e (fun a => by rw [shape_one hA]; exact h1) (fun a => by rw [shape_one hA]; show n < _; omega) _
      (fun a => by rw [shape_one hA]; exact hk)
  -- densities and gas
  have hex : ∀ k, ∃ x q, k < n → over (u k) (V k) = .ok x ∧ H.recover x = .ok q := by
    intro k
    by_cases hk : k < n
    · obtain ⟨q, hq⟩ := gets e6 hd1 k hk
      obtain ⟨x, hx, hq⟩ := mapO_inv hq
      rw [hd2 k hk] at hx
      exact ⟨x, q, fun _ => ⟨hx, hq⟩⟩
    · exact ⟨default, default, fun h => absurd h hk⟩
  choose x p hp using hex
  have hd : Line d n x := ⟨hd1, fun k hk => by rw [hd2 k hk, (hp k hk).1]⟩
  obtain ⟨p0', e6', hp0⟩ := (hd.mapO fun k hk => (hp k hk).2).evaluate (by omega)
  obtain rfl := Outcome.ok.inj (e6'.symm.trans e6)
  obtain ⟨p1', p2', e9', e10', hp2⟩ := extend_line H hp0 (by omega) h1
  obtain rfl := Outcome.ok.inj (e9'.symm.trans e9)
  obtain rfl := Outcome.ok.inj (e10'.symm.trans e10)
  -- sources and fluxes as far as they are read
  obtain ⟨hs1, hs2⟩ := binaryOpO_inv hp0 hrc e7
  unfold intercellFlux at e11
  obtain ⟨L, f1, e11⟩ := Outcome.bind_eq_ok.1 e11
  obtain ⟨U, f2, e11⟩ := Outcome.bind_eq_ok.1 e11
  obtain ⟨L', f1', hL⟩ := hp2.dropFinal (by omega)
  obtain ⟨U', f2', hU⟩ := hp2.dropFirst (by omega)
  obtain rfl := Outcome.ok.inj (f1'.symm.trans f1)
  obtain rfl := Outcome.ok.inj (f2'.symm.trans f2)
  obtain ⟨hf1, hf2⟩ := binaryOpO_inv hL hU e11
  obtain ⟨_, a1, a2⟩ := binaryOp_inv e15
  obtain ⟨_, b1, b2⟩ := binaryOp_inv e14
  obtain ⟨_, c1, c2⟩ := binaryOp_inv e12
  obtain ⟨_, d1, d2⟩ := binaryOp_inv e8
  obtain ⟨g1, g2⟩ := difference_inv e13 (by rw [c1]; exact hf1) (by omega)
  have hread : ∀ k, k < n → (∃ x, H.source (p k) ((r k + r (k + 1)) * half) = .ok x) ∧
      (∃ x, f.get (fun _ => k) = .ok x) ∧ ∃ x, f.get (fun _ => k + 1) = .ok x := by
    intro k hk
    obtain ⟨v, hv⟩ := gets e16 (by rw [a1]; exact hu.1) k hk
    obtain ⟨_, y, hy⟩ := a2 _ _ hv
    obtain ⟨y', hy'⟩ := map_inv hy
    obtain ⟨⟨z, hz⟩, w, hw⟩ := b2 _ _ hy'
    obtain ⟨⟨x, hx⟩, _⟩ := d2 _ _ hw
    rw [hs2 k hk] at hx
    obtain ⟨⟨y0, h0⟩, y1, h2⟩ := g2 k hk _ hz
    exact ⟨⟨x, hx⟩, (c2 _ _ h0).1, (c2 _ _ h2).1⟩
  have hflux : ∀ k, ∃ x, k < n + 1 → f.get (fun _ => k) = .ok x := by
    intro k
    by_cases hk : k < n
    · obtain ⟨x, hx⟩ := (hread k hk).2.1
      exact ⟨x, fun _ => hx⟩
    · by_cases hk2 : k = n
      · obtain ⟨x, hx⟩ := (hread (n - 1) (by omega)).2.2
        rw [show n - 1 + 1 = k by omega] at hx
        exact ⟨x, fun _ => hx⟩
      · exact ⟨default, fun h => absurd h (by omega)⟩
  have hsrc : ∀ k, ∃ x, k < n → H.source (p k) ((r k + r (k + 1)) * half) = .ok x := by
    intro k
    by_cases hk : k < n
    · obtain ⟨x, hx⟩ := (hread k hk).1
      exact ⟨x, fun _ => hx⟩
    · exact ⟨default, fun h => absurd h hk⟩
  choose F hF using hflux
  choose S hS using hsrc
  have hF' : ∀ k, k < n + 1 → H.riemann (if k = 0 then H.mirror (p 0) else p (min (k - 1) (n - 1))) (p (min k (n - 1))) = .ok (F k) := by
    intro k hk
    have := (hf2 k hk).symm.trans (hF k hk)
    rwa [if_neg (show ¬ k + 1 = 0 by omega), Nat.add_sub_cancel] at this
  -- the sum
  have hs : Line s n S := ⟨hs1, fun k hk => by rw [hs2 k hk, hS k hk]⟩
  obtain ⟨s0', e8', hs0⟩ := hs.binaryOp hdv scale
  obtain rfl := Outcome.ok.inj (e8'.symm.trans e8)
  have hf : Line f (n + 1) F := ⟨hf1, hF⟩
  obtain ⟨fa', e12', hfa⟩ := hf.binaryOp ((faceAreas_line hr).map fun x => -x) scale
  obtain rfl := Outcome.ok.inj (e12'.symm.trans e12)
  obtain ⟨l0', e13', hl0⟩ := hfa.difference (by omega)
  obtain rfl := Outcome.ok.inj (e13'.symm.trans e13)
  obtain ⟨ls', e14', hls⟩ := hl0.binaryOp hs0 (· + ·)
  obtain rfl := Outcome.ok.inj (e14'.symm.trans e14)
  obtain ⟨uu', e15', huu⟩ := hu.binaryOp (hls.map fun x => scale x (cfl * (r 1 - r 0))) (· + ·)
  obtain rfl := Outcome.ok.inj (e15'.symm.trans e15)
  obtain ⟨u1', e16', hu1⟩ := huu.evaluate hn
  obtain rfl := Outcome.ok.inj (e16'.symm.trans e16)
  refine ⟨x, p, F, S, fun k hk => (hp k hk).1, fun k hk => (hp k hk).2, ?_, fun k hk0 hk => ?_, ?_, hS, rfl, rfl, hu1⟩
  · have := hF' 0 (by omega)
    rwa [if_pos rfl, Nat.zero_min] at this
  · have := hF' k (by omega)
    rwa [if_neg (by omega), min_eq_left (by omega), min_eq_left (by omega)] at this
  · have := hF' n (by omega)
    rwa [if_neg (by omega), min_eq_left le_rfl, min_eq_right (by omega)] at this

/-- A step from what it computes. -/
theorem stepBy_of (h1 : 1 ≤ n) (hn : n < 2 ^ 31) (hr : Line st.vertices (n + 1) r) (hu : Line st.conserved n u)
    (hV : ∃ W, volumes st.vertices = .ok W ∧ Line W n V) {x : Nat → Vec m K} {p : Nat → P} {F S : Nat → Vec m K}
    (hx : ∀ k, k < n → over (u k) (V k) = .ok (x k)) (hp : ∀ k, k < n → H.recover (x k) = .ok (p k))
    (hF0 : H.riemann (H.mirror (p 0)) (p 0) = .ok (F 0)) (hF : ∀ k, 0 < k → k < n → H.riemann (p (k - 1)) (p k) = .ok (F k))
    (hFn : H.riemann (p (n - 1)) (p (n - 1)) = .ok (F n)) (hS : ∀ k, k < n → H.source (p k) ((r k + r (k + 1)) * half) = .ok (S k)) :
    ∃ st', nextSolutionBy volumes half over H cfl st = .ok st' ∧ Line st'.vertices (n + 1) r ∧
      Line st'.conserved n (fun k => u k + scale (scale (F (k + 1)) (-(r (k + 1) * r (k + 1))) - scale (F k) (-(r k * r k)) + scale (S k) (V k))
        (cfl * (r 1 - r 0))) := by
  obtain ⟨D, e1, hD⟩ := hr.difference (by omega)
  obtain ⟨W, e2, hW⟩ := hV
  obtain ⟨dv, e3, hdv⟩ := hW.evaluate (by omega)
  obtain ⟨rc, e4, hrc⟩ := hr.midpointBy (by omega) half
  obtain ⟨d, e5, hd⟩ := hu.binaryOpO hdv hx
  obtain ⟨p0, e6, hp0⟩ := (hd.mapO hp).evaluate (by omega)
  obtain ⟨s, e7, hs⟩ := hp0.binaryOpO hrc hS
  obtain ⟨s0, e8, hs0⟩ := hs.binaryOp hdv scale
  obtain ⟨p1, p2, e9, e10, hp2⟩ := extend_line H hp0 (by omega) h1
  obtain ⟨f, e11, hf⟩ := intercellFlux_line H (F := F) hp2 (by omega) fun k hk => by
    rw [if_neg (show ¬ k + 1 = 0 by omega), Nat.add_sub_cancel]
    rcases Nat.eq_zero_or_pos k with rfl | hk0
    · rw [if_pos rfl, Nat.zero_min, hF0]
    · rw [if_neg (by omega)]
      rcases Nat.lt_or_ge k n with h2 | h2
      · rw [min_eq_left (show k - 1 ≤ n - 1 by omega), min_eq_left (show k ≤ n - 1 by omega), hF k hk0 h2]
      · obtain rfl : k = n := by omega
        rw [min_eq_left le_rfl, min_eq_right (show k - 1 ≤ k by omega), hFn]
  obtain ⟨fa, e12, hfa⟩ := hf.binaryOp ((faceAreas_line hr).map fun x => -x) scale
  obtain ⟨l0, e13, hl0⟩ := hfa.difference (by omega)
  obtain ⟨ls, e14, hls⟩ := hl0.binaryOp hs0 (· + ·)
  obtain ⟨uu, e15, huu⟩ := hu.binaryOp (hls.map fun x => scale x (cfl * (r 1 - r 0))) (· + ·)
  obtain ⟨u1, e16, hu1⟩ := huu.evaluate hn
  refine ⟨⟨st.time + cfl * (r 1 - r 0), st.vertices, u1⟩, ?_, hr, hu1⟩
  unfold nextSolutionBy
  rw [e1, Outcome.bind_ok, hD.2 0 (by omega), Outcome.bind_ok, e2, Outcome.bind_ok, e3, Outcome.bind_ok, e4, Outcome.bind_ok, e5,
    Outcome.bind_ok, e6, Outcome.bind_ok, e7, Outcome.bind_ok, e8, Outcome.bind_ok, e9, Outcome.bind_ok, e10, Outcome.bind_ok, e11,
    Outcome.bind_ok, e12, Outcome.bind_ok, e13, Outcome.bind_ok, e14, Outcome.bind_ok, e15, Outcome.bind_ok, e16, Outcome.bind_ok]

end Verif.Sedov
