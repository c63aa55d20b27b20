import Verif.Lemmas.Grids

/-!
# What arrays that could be evaluated were made of

An array that is not evaluated may hold failures. If a result holds a value, so did the elements it was computed from.
-/

namespace Verif.Nd

variable {α β γ : Type} {R m n : Nat}

theorem writeAll_gets {A : Arr R α} {st : Ix R} : ∀ {l : List (Ix R)} {buf buf' : List α}, writeAll A st l buf = .ok buf' → ∀ i ∈ l, ∃ v, A.get i = .ok v
  | [], _, _, _, _, hi => absurd hi (by simp)
  | j :: l, buf, buf', h, i, hi => by
    unfold writeAll at h
    obtain ⟨v, hv, h⟩ := Outcome.bind_eq_ok.1 h
    rcases List.mem_cons.mp hi with rfl | hi
    · exact ⟨v, hv⟩
    · split at h
      · exact writeAll_gets h i hi
      · cases h

theorem evaluate_gets [Inhabited α] {A B : Arr 2 α} (h : evaluate A = .ok B) (hs : A.shape = ![m, n]) (hm : 1 ≤ m) (hn : 1 ≤ n) (hm2 : m < 2 ^ 64)
    (hn2 : n < 2 ^ 64) : ∀ i, i < m → ∀ j, j < n → ∃ v, A.get ![i, j] = .ok v := by
  unfold evaluate at h
  split at h
  · cases h
  · obtain ⟨l, hl, hmem⟩ := indexes_shape (s := A.shape) (Or.inl (by rw [hs]; intro a; fin_cases a; exacts [hm, hn])) (by rw [hs]; exact pair_lt hm2 hn2)
    rw [hl, Outcome.bind_ok] at h
    obtain ⟨buf, hb, _⟩ := Outcome.bind_eq_ok.1 h
    intro i hi j hj
    refine writeAll_gets hb _ ((hmem _).2 ?_)
    rw [hs]
    intro a
    fin_cases a
    exacts [hi, hj]

/-- An evaluated array, with the elements that were computed. -/
theorem evaluate_grid [Inhabited α] {A B : Arr 2 α} (h : evaluate A = .ok B) (hs : A.shape = ![m, n]) (hm : 1 ≤ m) (hn : 1 ≤ n)
    (hmn : m * n < 2 ^ 31) : ∃ f, Grid A m n f ∧ Grid B m n f := by
  have b1 : m ≤ m * n := Nat.le_mul_of_pos_right _ (by omega)
  have b2 : n ≤ m * n := Nat.le_mul_of_pos_left _ (by omega)
  have hg := evaluate_gets h hs hm hn (by omega) (by omega)
  have : ∃ f, Grid A m n f := by
    classical
    refine ⟨fun x y => if hv : ∃ v, A.get ![x, y] = .ok v then hv.choose else default, by rw [hs]; rfl, by rw [hs]; rfl, fun x hx y hy => ?_⟩
    have hv := hg x hx y hy
    dsimp only
    rw [dif_pos hv]
    exact hv.choose_spec
  obtain ⟨f, hf⟩ := this
  obtain ⟨D, e, hD⟩ := hf.evaluate hm hn hmn
  rw [e] at h
  cases h
  exact ⟨f, hf, hD⟩

theorem Grid.shape_eq {A : Arr 2 α} {f : Nat → Nat → α} (h : Grid A m n f) : A.shape = ![m, n] := (grid_iff.mp h).1

theorem binaryOp_inv {f : α → β → γ} {A : Arr R α} {B : Arr R β} {C : Arr R γ} (h : binaryOp f A B = .ok C) :
    A.shape = B.shape ∧ C.shape = A.shape ∧ ∀ i v, C.get i = .ok v → (∃ a, A.get i = .ok a) ∧ ∃ b, B.get i = .ok b := by
  unfold binaryOp at h
  split at h
  · cases h
  · rename_i hs
    cases h
    refine ⟨not_not.mp hs, rfl, fun i v hv => ?_⟩
    obtain ⟨a, ha, hv⟩ := Outcome.bind_eq_ok.1 hv
    obtain ⟨b, hb, _⟩ := Outcome.bind_eq_ok.1 hv
    exact ⟨⟨a, ha⟩, b, hb⟩

theorem map_inv {f : α → β} {A : Arr R α} {i : Ix R} {v : β} (h : (A.map f).get i = .ok v) : ∃ a, A.get i = .ok a := by
  obtain ⟨a, ha, _⟩ := Outcome.map_eq_ok.1 h
  exact ⟨a, ha⟩

theorem mapO_inv {f : α → Outcome β} {A : Arr R α} {i : Ix R} {v : β} (h : (A.mapO f).get i = .ok v) : ∃ a, A.get i = .ok a ∧ f a = .ok v :=
  Outcome.bind_eq_ok.1 h

theorem indexArray_grid (m n : Nat) : Grid (indexArray ![m, n]) m n (fun i j => ![i, j]) := ⟨rfl, rfl, fun _ _ _ _ => rfl⟩

/-- A selection reads the elements that the same selection of the indexes names. -/
theorem selectAxis_reads {a s f k : Nat} {b : Bool} {A U : Arr R α} {I : Arr R (Ix R)} (h : selectAxis a s f k b A = .ok U)
    (hI : selectAxis a s f k b (indexArray A.shape) = .ok I) : U.shape = I.shape ∧ ∀ i, U.get i = (I.get i).bind A.get := by
  unfold selectAxis at h hI
  split at h
  · rename_i ha
    rw [dif_pos ha] at hI
    dsimp only at h hI
    split at h
    · cases h
    · rename_i hk
      rw [if_neg hk] at hI
      cases h
      cases hI
      exact ⟨rfl, fun _ => rfl⟩
  · cases h

theorem difference0_inv {K : Type} [AddCommGroup K] {A D : Arr 2 K} (h : difference 0 A = .ok D) (hs : A.shape = ![m + 1, n]) (hm : m + 1 < 2 ^ 64)
    (hn : n < 2 ^ 64) : D.shape = ![m, n] ∧ ∀ i, i < m → ∀ j, j < n → ∀ v, D.get ![i, j] = .ok v
      → (∃ a, A.get ![i, j] = .ok a) ∧ ∃ a, A.get ![i + 1, j] = .ok a := by
  unfold difference at h
  obtain ⟨U, hU, h⟩ := Outcome.bind_eq_ok.1 h
  obtain ⟨L, hL, h⟩ := Outcome.bind_eq_ok.1 h
  obtain ⟨_, h2, h3⟩ := binaryOp_inv h
  obtain ⟨I, e1, hI⟩ := (indexArray_grid (m + 1) n).dropFirst0 hm hn
  obtain ⟨J, e2, hJ⟩ := (indexArray_grid (m + 1) n).dropFinal0 hm hn
  obtain ⟨u1, u2⟩ := selectAxis_reads hU (by rw [hs]; exact e1)
  obtain ⟨_, l2⟩ := selectAxis_reads hL (by rw [hs]; exact e2)
  refine ⟨by rw [h2, u1, hI.shape_eq], fun i hi j hj v hv => ?_⟩
  obtain ⟨x, y⟩ := h3 _ _ hv
  rw [u2, hI.2.2 i hi j hj, Outcome.bind_ok] at x
  rw [l2, hJ.2.2 i hi j hj, Outcome.bind_ok] at y
  exact ⟨y, x⟩

theorem difference1_inv {K : Type} [AddCommGroup K] {A D : Arr 2 K} (h : difference 1 A = .ok D) (hs : A.shape = ![m, n + 1]) (hm : m < 2 ^ 64)
    (hn : n + 1 < 2 ^ 64) : D.shape = ![m, n] ∧ ∀ i, i < m → ∀ j, j < n → ∀ v, D.get ![i, j] = .ok v
      → (∃ a, A.get ![i, j] = .ok a) ∧ ∃ a, A.get ![i, j + 1] = .ok a := by
  unfold difference at h
  obtain ⟨U, hU, h⟩ := Outcome.bind_eq_ok.1 h
  obtain ⟨L, hL, h⟩ := Outcome.bind_eq_ok.1 h
  obtain ⟨_, h2, h3⟩ := binaryOp_inv h
  obtain ⟨I, e1, hI⟩ := (indexArray_grid m (n + 1)).dropFirst1 hm hn
  obtain ⟨J, e2, hJ⟩ := (indexArray_grid m (n + 1)).dropFinal1 hm hn
  obtain ⟨u1, u2⟩ := selectAxis_reads hU (by rw [hs]; exact e1)
  obtain ⟨_, l2⟩ := selectAxis_reads hL (by rw [hs]; exact e2)
  refine ⟨by rw [h2, u1, hI.shape_eq], fun i hi j hj v hv => ?_⟩
  obtain ⟨x, y⟩ := h3 _ _ hv
  rw [u2, hI.2.2 i hi j hj, Outcome.bind_ok] at x
  rw [l2, hJ.2.2 i hi j hj, Outcome.bind_ok] at y
  exact ⟨y, x⟩

theorem select_shape {p : AccessPattern R} {A U : Arr R α} (h : select p A = .ok U) : U.shape = p.shape := by
  unfold select at h
  split at h
  · cases h
  · split at h
    · cases h
    · cases h
      rfl

theorem selectFirst1_shape {A U : Arr 2 α} (h : selectFirst 1 1 A = .ok U) (hs : A.shape = ![m, n]) (hn : 1 ≤ n) (hm : m < 2 ^ 64) (hn2 : n < 2 ^ 64) :
    U.shape = ![m, 1] := by
  obtain ⟨I, e, hI⟩ := selectFirst_denotes (grid_iff.mp (indexArray_grid m n)) (pair_lt hm hn2) 1 1 hn
  have hI' := hI.1
  unfold selectFirst at h
  have e' : selectFirst 1 1 (indexArray (![m, n] : Ix 2)) = .ok I := e
  unfold selectFirst at e'
  rw [dif_pos (by norm_num)] at h e'
  have s1 := select_shape h
  have s2 := select_shape e'
  rw [s1, hs]
  rw [hI'] at s2
  exact s2.symm.trans update_snd

theorem concat1_inv {A B D : Arr 2 α} (h : concat 1 B A = .ok D) : D.shape 1 = w (A.shape 1 + B.shape 1) ∧ D.shape 0 = A.shape 0
    ∧ ∀ i j, D.get ![i, j] = if j ≥ A.shape 1 then B.get ![i, j - A.shape 1] else A.get ![i, j] := by
  unfold concat at h
  rw [dif_pos (by norm_num)] at h
  split at h
  · cases h
  · cases h
    refine ⟨rfl, rfl, fun i j => ?_⟩
    show (if j ≥ A.shape 1 then B.get (Function.update ![i, j] 1 (j - A.shape 1)) else A.get ![i, j]) = _
    rw [update_snd]

theorem extendZeros1_inv {K : Type} [MulZeroClass K] {A D : Arr 2 K} (h : extendZeros 1 A = .ok D) (hs : A.shape = ![m, n]) (h1 : 1 ≤ n)
    (hm : m < 2 ^ 64) (hn : n + 2 < 2 ^ 64) : ∀ i j, j < n → D.get ![i, j + 1] = A.get ![i, j] := by
  unfold extendZeros at h
  obtain ⟨xl, e1, h⟩ := Outcome.bind_eq_ok.1 h
  obtain ⟨xr, e2, h⟩ := Outcome.bind_eq_ok.1 h
  obtain ⟨y, e3, h⟩ := Outcome.bind_eq_ok.1 h
  have s1 : (xl.map (· * 0)).shape 1 = 1 := by
    show xl.shape 1 = 1
    rw [selectFirst1_shape e1 hs h1 hm (by omega)]
    rfl
  have sA : A.shape 1 = n := by
    rw [hs]
    rfl
  obtain ⟨y1, _, y3⟩ := concat1_inv e3
  obtain ⟨_, _, d3⟩ := concat1_inv h
  rw [s1, sA, w_eq (by omega)] at y1
  rw [s1] at y3
  intro i j hj
  rw [d3, if_neg (by omega), y3, if_pos (by omega), Nat.add_sub_cancel]

end Verif.Nd
