import Verif.Model.SedovFiles
import Verif.Spec.SedovFiles
import Verif.Props.SedovSeries
import Verif.Props.Groups
import Verif.Props.Hyperslab

/-!
# C141: the files of diagnostics and of the time series of the Sedov program
-/

namespace Verif.SedovFiles

open Verif Verif.Nd Verif.Sedov Verif.Text Verif.Groups

theorem readAll_line {A : Arr 1 ℝ} {n : Nat} {y : Nat → ℝ} (h : Line A n y) : readAll A (H5.allPoints A.shape) = .ok ((List.range n).map y) := by
  have e : H5.allPoints A.shape = (List.range n).map fun k _ => k := by
    unfold H5.allPoints
    simp only [H5.product]
    rw [h.1]
    have : ∀ r : List Nat, (r.flatMap fun x => [(Fin.cons x Fin.elim0 : Ix 1)]) = r.map fun k _ => k := by
      intro r
      induction r with
      | nil => rfl
      | cons a r ih =>
        rw [List.flatMap_cons, ih]
        show _ :: _ = _ :: _
        congr 1
        funext i
        rw [Fin.fin_one_eq_zero i]
        rfl
    simpa using this (List.range n)
  rw [e]
  have : ∀ l : List Nat, (∀ k ∈ l, k < n) → readAll A (l.map fun k _ => k) = .ok (l.map y) := by
    intro l
    induction l with
    | nil => exact fun _ => rfl
    | cons a l ih =>
      intro hl
      rw [List.map_cons]
      unfold readAll
      rw [h.2 a (hl a (by simp)), Outcome.bind_ok, ih fun k hk => hl k (List.mem_cons_of_mem _ hk)]
      rfl
  exact this _ fun k hk => List.mem_range.1 hk

/-- A file that was opened for writing, and what is in it: these numbers under these names, and nothing else. -/
structure Contents (f : Store) (l : List (Str × List ℝ)) : Prop where
  sound : Sound f
  writable : f.writable = true
  data : ∀ k v, (k, v) ∈ l → read f [] k () = .ok (some v)
  only : ∀ k, (objectAt f [k]).isSome = true ↔ k ∈ l.map Prod.fst

theorem root_group (f : Store) : groupAt f [] = true := rfl

theorem Contents.write {f : Store} {l : List (Str × List ℝ)} (h : Contents f l) {k : Str} (hp : Plain k) (hk : k ∉ l.map Prod.fst) (hl : ∀ p ∈ l, Plain p.1)
    (s : Option Nat) (v : List ℝ) : ∃ f', write f [] k () s v = .ok f' ∧ Contents f' (l ++ [(k, v)]) := by
  have hn : objectAt f ([] ++ [k]) = none := by
    have := mt (h.only k).1 hk
    simpa using this
  obtain ⟨f', e, s', w', r', o'⟩ := write_read h.sound h.writable (root_group f) hp () s v (by rw [hn]; intro x hx; cases hx)
  have ne : ∀ {j : Str}, j ≠ k → ([j] : Path) ≠ [] ++ [k] := fun hj e => hj (by simpa using e)
  refine ⟨f', e, s', w', fun j u hm => ?_, fun j => ?_⟩
  · rcases List.mem_append.1 hm with hm' | hm
    · have hj : j ≠ k := by
        rintro rfl
        exact hk (List.mem_map.2 ⟨(j, u), hm', rfl⟩)
      rw [← h.data j u hm']
      unfold Groups.read openDataset
      rw [target_plain [] (hl _ hm'), List.nil_append, o' _ (ne hj)]
    · rw [List.mem_singleton] at hm
      cases hm
      exact r'
  · by_cases hj : j = k
    · subst hj
      refine ⟨fun _ => by simp, fun _ => ?_⟩
      unfold Groups.read openDataset at r'
      rw [target_plain [] hp] at r'
      cases ho : objectAt f' [j] with
      | none =>
        rw [List.nil_append, ho] at r'
        cases r'
      | some x => rfl
    · rw [o' _ (ne hj), h.only j]
      simp [hj]

theorem Contents.line {f : Store} {l : List (Str × List ℝ)} (h : Contents f l) {k : Str} (hp : Plain k) (hk : k ∉ l.map Prod.fst) (hl : ∀ p ∈ l, Plain p.1)
    {A : Arr 1 ℝ} {n : Nat} {y : Nat → ℝ} (hA : Line A n y) : ∃ f', writeLine f k A = .ok f' ∧ Contents f' (l ++ [(k, (List.range n).map y)]) := by
  unfold writeLine
  rw [readAll_line hA, Outcome.bind_ok]
  exact h.write hp hk hl _ _

theorem Contents.items : ∀ (r : List (Str × ℝ)) {f : Store} {l : List (Str × List ℝ)}, Contents f l → (∀ p ∈ l, Plain p.1) → (∀ p ∈ r, Plain p.1) →
    ((l.map Prod.fst) ++ r.map Prod.fst).Nodup → ∃ f', writeItems f r = .ok f' ∧ Contents f' (l ++ r.map fun p => (p.1, [p.2]))
  | [], f, l, h, _, _, _ => ⟨f, rfl, by simpa using h⟩
  | (k, x) :: r, f, l, h, hl, hr, hd => by
    have hk : k ∉ l.map Prod.fst := by
      intro hm
      exact (List.nodup_append.1 hd).2.2 k hm k (by simp) rfl
    obtain ⟨f1, e1, h1⟩ := h.write (hr (k, x) (by simp)) hk hl none [x]
    obtain ⟨f2, e2, h2⟩ := Contents.items r h1 (by
        intro p hp
        rcases List.mem_append.1 hp with hp | hp
        · exact hl p hp
        · rw [List.mem_singleton] at hp
          subst hp
          exact hr (k, x) (by simp)) (fun p hp => hr p (List.mem_cons_of_mem _ hp)) (by simpa using hd)
    refine ⟨f2, ?_, by simpa using h2⟩
    unfold writeItems writeNumber
    rw [e1, Outcome.bind_ok, e2]

theorem names_nodup : [gasPressureKey, massDensityKey, specificEntropyKey, radialGammaBetaKey, radialCoordinatesKey, shockRadiusKey, shockRadiusDownstreamKey, shockRadiusInterpolatedKey,
    shockRadiusUpstreamKey, shockVelocityKey, timeKey].Nodup := by decide

theorem empty_contents : Contents ⟨true, []⟩ [] :=
  ⟨⟨by simp, by intro x hx; cases hx⟩, rfl, by simp, by simp [objectAt]⟩

section
variable {H : Hydro 5 ℝ (Vec 5 ℝ)} {velocity : Vec 5 ℝ → Vec 5 ℝ → Outcome ℝ} {g : ℝ} {st : State 5 ℝ} {n : Nat} {x : Nat → ℝ} {U P : Nat → Vec 5 ℝ}

theorem fields_line (hx : Line st.vertices (n + 1) x) (hm : ∀ k, k < n → x k < x (k + 1)) (hU : Line st.conserved n U) (hn : n + 1 < 2 ^ 31)
    (hP : ∀ k, k < n → H.recover (fun a => U k a / shell x k) = .ok (P k)) (hpos : ∀ k, k < n → 0 < P k 0 ∧ 0 < P k 4) {row : Row}
    (hr : timeSeries H velocity g st = .ok row) :
    ∃ d, makeFields H velocity g st = .ok d ∧ Line d.gasPressure n (fun k => P k 4) ∧ Line d.massDensity n (fun k => P k 0) ∧
      Line d.specificEntropy n (fun k => entropyOf g (P k)) ∧ Line d.radialGammaBeta n (fun k => P k 1) ∧ Line d.radialCoordinates n (middle x) ∧ d.series = row := by
  obtain ⟨V, e1, hV⟩ := cellVolumes_line hx (by omega)
  obtain ⟨D, e2, hD⟩ := hU.binaryOpO hV (f := divideVec) (x := fun k => fun a => U k a / shell x k) (by
    intro k hk
    unfold divideVec
    rw [if_neg (show ¬(x (k + 1) ^ 3 - x k ^ 3) / 3 = 0 from shell_ne hm hk)]
    rfl)
  have hp := hD.mapO hP
  have hs : Line ((D.mapO H.recover).mapO (Sedov.specificEntropy g)) n (fun l => entropyOf g (P l)) := hp.mapO fun k hk => by
    unfold Sedov.specificEntropy
    rw [if_pos (hpos k hk)]
    rfl
  obtain ⟨E, e3, hE⟩ := hs.evaluate (by omega)
  obtain ⟨A4, e4, h4⟩ := (hp.map fun P => P 4).evaluate (by omega)
  obtain ⟨A0, e5, h0⟩ := (hp.map fun P => P 0).evaluate (by omega)
  obtain ⟨A1, e6, h1⟩ := (hp.map fun P => P 1).evaluate (by omega)
  obtain ⟨M, e7, hM⟩ := hx.midpoint (by omega)
  obtain ⟨R, e8, hR⟩ := hM.evaluate (by omega)
  refine ⟨⟨A4, A0, E, A1, R, row⟩, ?_, h4, h0, hE, h1, hR, rfl⟩
  unfold makeFields
  rw [e1, Outcome.bind_ok, show binaryOpO divideVec st.conserved V = .ok D from e2, Outcome.bind_ok]
  dsimp only
  rw [e3, Outcome.bind_ok, e4, Outcome.bind_ok, e5, Outcome.bind_ok, e6, Outcome.bind_ok, e7, Outcome.bind_ok, e8, Outcome.bind_ok, hr]
  rfl

/-- **C141, partial.** The file of diagnostics, if the numbers of the row are defined: whatever file of the name there was, it has pressure, density, specific entropy, velocity and radius of all cells in the same order, the row of the
time series, and nothing else; no other file changes. -/
theorem diagnostics_file_partial (hx : Line st.vertices (n + 1) x) (hm : ∀ k, k < n → x k < x (k + 1)) (hU : Line st.conserved n U) (hn : n + 1 < 2 ^ 31)
    (hP : ∀ k, k < n → H.recover (fun a => U k a / shell x k) = .ok (P k)) (hpos : ∀ k, k < n → 0 < P k 0 ∧ 0 < P k 4) {row : Row}
    (hr : timeSeries H velocity g st = .ok row) (disk : Disk Unit (Option Nat) (List ℝ)) (name : Str) :
    ∃ disk' f, writeDiagnostics H velocity g st disk name = .ok disk' ∧ (∀ m, m ≠ name → disk' m = disk m) ∧ openFile disk' name ['r'] = .ok (disk', f) ∧
      read f [] "gas_pressure".toList () = .ok (some ((List.range n).map fun k => P k 4)) ∧
      read f [] "mass_density".toList () = .ok (some ((List.range n).map fun k => P k 0)) ∧
      read f [] "specific_entropy".toList () = .ok (some ((List.range n).map fun k => Real.log (P k 4 / P k 0 ^ g))) ∧
      read f [] "radial_gamma_beta".toList () = .ok (some ((List.range n).map fun k => P k 1)) ∧
      read f [] "radial_coordinates".toList () = .ok (some ((List.range n).map fun k => (x k + x (k + 1)) / 2)) ∧
      read f [] "time".toList () = .ok (some [row.time]) ∧
      read f [] "shock_radius".toList () = .ok (some [row.shockRadius]) ∧
      read f [] "shock_radius_upstream".toList () = .ok (some [row.shockRadiusUpstream]) ∧
      read f [] "shock_radius_downstream".toList () = .ok (some [row.shockRadiusDownstream]) ∧
      read f [] "shock_radius_interpolated".toList () = .ok (some [row.shockRadiusInterpolated]) ∧
      read f [] "shock_velocity".toList () = .ok (some [row.shockVelocity]) ∧
      size f [] = 11 := by
  obtain ⟨d, e0, h1, h2, h3, h4, h5, rfl⟩ := fields_line hx hm hU hn hP hpos hr
  obtain ⟨f1, e1, c1⟩ := empty_contents.line (k := gasPressureKey) (by unfold Plain; decide) (by simp) (by simp) h1
  obtain ⟨f2, e2, c2⟩ := c1.line (k := massDensityKey) (by unfold Plain; decide) (by simp; decide) (by simp; unfold Plain; decide) h2
  obtain ⟨f3, e3, c3⟩ := c2.line (k := specificEntropyKey) (by unfold Plain; decide) (by simp; decide) (by simp; unfold Plain; decide) h3
  obtain ⟨f4, e4, c4⟩ := c3.line (k := radialGammaBetaKey) (by unfold Plain; decide) (by simp; decide) (by simp; unfold Plain; decide) h4
  obtain ⟨f5, e5, c5⟩ := c4.line (k := radialCoordinatesKey) (by unfold Plain; decide) (by simp; decide) (by simp; unfold Plain; decide) h5
  obtain ⟨f, e6, c⟩ := Contents.items (items d.series) c5 (by simp; unfold Plain; decide) (by simp [items]; unfold Plain; decide) names_nodup
  have rd : ∀ k v, (k, v) ∈ _ → read (⟨false, f.objects⟩ : Store) [] k () = .ok (some v) := fun k v hm => c.data k v hm
  refine ⟨close (fun n => if n = name then some [] else disk n) name f, ⟨false, f.objects⟩, ?_, fun m hne => by simp [close, hne], by simp [openFile, close],
    ?_, ?_, ?_, ?_, ?_, ?_, ?_, ?_, ?_, ?_, ?_, ?_⟩
  · unfold writeDiagnostics
    have : openFile disk name ['w'] = .ok (fun n => if n = name then some [] else disk n, ⟨true, []⟩) := rfl
    rw [this, Outcome.bind_ok, e0, Outcome.bind_ok]
    dsimp only
    rw [e1, Outcome.bind_ok, e2, Outcome.bind_ok, e3, Outcome.bind_ok, e4, Outcome.bind_ok, e5, Outcome.bind_ok, e6]
    rfl
  · exact rd gasPressureKey _ (by simp)
  · exact rd massDensityKey _ (by simp)
  · exact rd specificEntropyKey ((List.range n).map fun k => entropyOf g (P k)) (by simp)
  · exact rd radialGammaBetaKey _ (by simp)
  · exact rd radialCoordinatesKey ((List.range n).map (middle x)) (by simp)
  · exact rd timeKey _ (by simp [items])
  · exact rd shockRadiusKey _ (by simp [items])
  · exact rd shockRadiusUpstreamKey _ (by simp [items])
  · exact rd shockRadiusDownstreamKey _ (by simp [items])
  · exact rd shockRadiusInterpolatedKey _ (by simp [items])
  · exact rd shockVelocityKey _ (by simp [items])
  · have p : (members f []).Perm ([gasPressureKey, massDensityKey, specificEntropyKey, radialGammaBetaKey, radialCoordinatesKey] ++ (items d.series).map Prod.fst) := by
      refine (List.perm_ext_iff_of_nodup (c.sound.members_nodup []) names_nodup).2 fun k => ?_
      rw [mem_members, List.nil_append, c.only k]
      simp [items]
    exact p.length_eq

end

/-- Five cells of gas, whose row is known. -/
example (disk : Disk Unit (Option Nat) (List ℝ)) : ∃ disk' f, writeDiagnostics (newtonian (4 / 3)) shockVelocityEuler (4 / 3) (fiveState fun P => Euler.toConserved P (4 / 3)) disk ['d'] = .ok disk' ∧
    openFile disk' ['d'] ['r'] = .ok (disk', f) ∧ read f [] "mass_density".toList () = .ok (some [1, 8, 1, 1, 1]) ∧ read f [] "shock_radius".toList () = .ok (some [3]) := by
  obtain ⟨d, f, h1, -, h2, -, h3, -, -, -, -, h4, -⟩ := diagnostics_file_partial (n := 5) (x := sixRadii) (P := fiveCells) ⟨rfl, fun _ _ => rfl⟩ (fun k _ => sixRadii_lt k) ⟨rfl, fun _ _ => rfl⟩ (by norm_num)
    (fun k hk => by
      have e : (fun a => scale (Euler.toConserved (fiveCells k) (4 / 3)) (shell sixRadii k) a / shell sixRadii k) = Euler.toConserved (fiveCells k) (4 / 3) := by
        funext a
        exact mul_div_cancel_right₀ _ (shell_ne (fun k _ => sixRadii_lt k) hk)
      show (newtonian (4 / 3)).recover (fun a => scale (Euler.toConserved (fiveCells k) (4 / 3)) (shell sixRadii k) a / shell sixRadii k) = _
      rw [e]
      unfold newtonian
      dsimp only
      rw [if_neg, Euler.recover_toConserved (fiveCells k) (fiveCells_pos k) (4 / 3) (by norm_num)]
      exact (fiveCells_pos k).1.ne') (fun k _ => fiveCells_pos k) five_row.2 disk ['d']
  refine ⟨d, f, h1, h2, ?_, h4⟩
  rw [h3]
  simp [List.range_succ, fiveCells]

theorem fields_row {H : Hydro 5 ℝ (Vec 5 ℝ)} {velocity : Vec 5 ℝ → Vec 5 ℝ → Outcome ℝ} {g : ℝ} {st : State 5 ℝ} {d : Fields} (h : makeFields H velocity g st = .ok d) :
    timeSeries H velocity g st = .ok d.series := by
  unfold makeFields at h
  simp only [Outcome.bind_eq_ok, Outcome.map_eq_ok] at h
  obtain ⟨_, -, _, -, _, -, _, -, _, -, _, -, _, -, _, -, row, h1, rfl⟩ := h
  exact h1

/-- **C141, violated.** The first file of diagnostics, of the state that the program starts with, has undefined numbers (for both gases). -/
theorem diagnostics_first_violated (c : RunConfig) (g : ℝ) (st : State 5 ℝ) (m : Nat) (x : Nat → ℝ) (U : Nat → Vec 5 ℝ) (h1 : 1 ≤ m) (hm : m + 1 < 2 ^ 31)
    (h : StartsWith c g st m x U) (disk disk' : Disk Unit (Option Nat) (List ℝ)) (name : Str) :
    writeDiagnostics (newtonian g) shockVelocityEuler g st disk name ≠ .ok disk' ∧ writeDiagnostics (relativistic g) shockVelocitySrhd g st disk name ≠ .ok disk' := by
  have key : ∀ H velocity, (∀ row, timeSeries H velocity g st ≠ .ok row) → writeDiagnostics H velocity g st disk name ≠ .ok disk' := by
    intro H velocity hn e
    unfold writeDiagnostics at e
    rw [Outcome.bind_eq_ok] at e
    obtain ⟨o, -, e⟩ := e
    rw [Outcome.bind_eq_ok] at e
    obtain ⟨d, hd, -⟩ := e
    exact hn _ (fields_row hd)
  exact ⟨key _ _ fun row => (series_first_violated c g st m x U h1 hm h row).1, key _ _ fun row => (series_first_violated c g st m x U h1 hm h row).2⟩

/-- The configuration by default. -/
example (disk disk' : Disk Unit (Option Nat) (List ℝ)) : ∃ st, newSolution (fun P => Srhd.toConserved P (4 / 3)) ⟨256, 100, 1, 1, 0⟩ = .ok st ∧
    writeDiagnostics (relativistic (4 / 3)) shockVelocitySrhd (4 / 3) st disk ['d'] ≠ .ok disk' := by
  obtain ⟨st, x, U, e, h, -⟩ := default_start
  exact ⟨st, e, (diagnostics_first_violated _ _ _ _ _ _ (by omega) (by norm_num) h disk disk' ['d']).2⟩

/-! ### The time series -/

theorem objectAt_update {f : Store} {w : Bool} {p : Path} (hp0 : p ≠ []) (G : Node Unit (Option Nat) (List ℝ) → Node Unit (Option Nat) (List ℝ)) (q : Path) :
    objectAt ⟨w, f.objects.map fun x => if x.1 = p then (x.1, G x.2) else x⟩ q = if q = p then (objectAt f q).map G else objectAt f q := by
  by_cases h0 : q = []
  · subst h0
    simp [objectAt, Ne.symm hp0]
  rw [objectAt_ne h0, objectAt_ne h0]
  dsimp only
  induction f.objects with
  | nil => simp
  | cons x l ih =>
    rw [List.map_cons]
    by_cases hx : x.1 = q
    · by_cases hq : q = p
      · simp [List.find?_cons, hx, hq]
      · have : ¬ x.1 = p := by rw [hx]; exact hq
        simp [List.find?_cons, hx, hq, this]
    · by_cases hxp : x.1 = p
      · have e : (if x.1 = p then (x.1, G x.2) else x) = (x.1, G x.2) := if_pos hxp
        rw [e, List.find?_cons_of_neg (by simpa using hx), List.find?_cons_of_neg (by simpa using hx)]
        exact ih
      · rw [if_neg hxp, List.find?_cons_of_neg (by simpa using hx), List.find?_cons_of_neg (by simpa using hx)]
        exact ih

theorem column_iff {f : Store} {k : Str} (hp : Plain k) {l : List ℝ} : Column f k l ↔ ∃ v, objectAt f [k] = some (.data ⟨(), some l.length, some [1000], v⟩) ∧ v.getD [] = l := by
  unfold Column openDataset
  rw [target_plain [] hp, List.nil_append]
  constructor
  · rintro ⟨v, h, hv⟩
    refine ⟨v, ?_, hv⟩
    cases ho : objectAt f [k] with
    | none => rw [ho] at h; cases h
    | some x =>
      rw [ho] at h
      cases x with
      | group => cases h
      | data d => cases h; rfl
  · rintro ⟨v, h, hv⟩
    exact ⟨v, by rw [h], hv⟩

theorem entry_list {l : List ℝ} {n : Nat} (h : n ≤ l.length) (x : ℝ) : (resize l (n + 1)).set n x = l.take n ++ [x] := by
  unfold resize
  refine List.ext_getElem ?_ fun i h1 h2 => ?_
  · simp
    omega
  · simp only [List.length_append, List.length_take, List.length_singleton] at h2
    by_cases hi : i = n
    · subst hi
      have e : (l.take i).length = i := by simp [h]
      simp [List.getElem_append_right, e, h]
    · have hlt : i < n := by omega
      rw [List.getElem_set_ne (by omega), List.getElem_append_left (by simp; omega), List.getElem_append_left (by simp; omega)]
      simp

theorem writeEntry_spec {f : Store} (hw : f.writable = true) {k : Str} (hp : Plain k) {l : List ℝ} (h : Column f k l) {n : Nat} (hn : n ≤ l.length) (x : ℝ) :
    ∃ f', writeEntry f k n x = .ok f' ∧ f'.writable = true ∧ Column f' k (l.take n ++ [x]) ∧ ∀ q, q ≠ [k] → objectAt f' q = objectAt f q := by
  obtain ⟨v, e, hv⟩ := h
  obtain ⟨v', e', -⟩ := (column_iff hp).1 ⟨v, e, hv⟩
  have hvv : v' = v := by
    unfold openDataset at e
    rw [target_plain [] hp, List.nil_append, e'] at e
    cases e
    rfl
  subst hvv
  unfold writeEntry
  rw [e, Outcome.bind_ok, if_pos ⟨hw, rfl, rfl⟩]
  refine ⟨_, rfl, hw, (column_iff hp).2 ⟨some (l.take n ++ [x]), ?_, rfl⟩, fun q hq => ?_⟩
  · dsimp only
    rw [objectAt_update (by simp), if_pos rfl, e']
    simp only [Option.map_some, putEntry, hv, entry_list hn]
    have : (l.take n ++ [x]).length = n + 1 := by simp [hn]
    rw [this]
  · dsimp only
    rw [objectAt_update (by simp), if_neg hq]

theorem column_congr {f g : Store} {k : Str} (hp : Plain k) {l : List ℝ} (h : Column f k l) (e : objectAt g [k] = objectAt f [k]) : Column g k l := by
  rw [column_iff hp] at h ⊢
  rwa [e]

theorem writeEntries_spec {n : Nat} : ∀ (L : List (Str × List ℝ × ℝ)) {f : Store}, f.writable = true → (∀ p ∈ L, Plain p.1 ∧ Column f p.1 p.2.1 ∧ n ≤ p.2.1.length) →
    (L.map Prod.fst).Nodup →
    ∃ f', writeEntries f n (L.map fun p => (p.1, p.2.2)) = .ok f' ∧ f'.writable = true ∧ (∀ p ∈ L, Column f' p.1 (p.2.1.take n ++ [p.2.2])) ∧
      ∀ q, (∀ p ∈ L, q ≠ [p.1]) → objectAt f' q = objectAt f q
  | [], f, hw, _, _ => ⟨f, rfl, hw, by simp, fun _ _ => rfl⟩
  | (k, l, x) :: L, f, hw, h, hd => by
    obtain ⟨hp, hc, hn⟩ := h (k, l, x) (by simp)
    rw [List.map_cons, List.nodup_cons] at hd
    obtain ⟨f1, e1, w1, c1, o1⟩ := writeEntry_spec hw hp hc hn x
    have ne : ∀ p ∈ L, p.1 ≠ k := fun p hp' e => hd.1 (List.mem_map.2 ⟨p, hp', e⟩)
    obtain ⟨f2, e2, w2, c2, o2⟩ := writeEntries_spec L w1 (fun p hp' => by
      obtain ⟨a, b, c⟩ := h p (List.mem_cons_of_mem _ hp')
      exact ⟨a, column_congr a b (o1 _ (by simpa using ne p hp')), c⟩) hd.2
    refine ⟨f2, ?_, w2, ?_, fun q hq => ?_⟩
    · rw [List.map_cons]
      unfold writeEntries
      rw [e1, Outcome.bind_ok, e2]
    · intro p hp'
      rcases List.mem_cons.1 hp' with rfl | hp'
      · exact column_congr hp c1 (o2 _ fun p hp' e => ne p hp' (by simpa using e.symm))
      · exact c2 p hp'
    · rw [o2 q fun p hp' => hq p (List.mem_cons_of_mem _ hp'), o1 q (hq _ (List.mem_cons_self ..))]

/-- The columns in the order in which they are written. -/
def sorted : List (Str × (Row → ℝ)) :=
  [(shockRadiusKey, Row.shockRadius), (shockRadiusDownstreamKey, Row.shockRadiusDownstream), (shockRadiusInterpolatedKey, Row.shockRadiusInterpolated),
    (shockRadiusUpstreamKey, Row.shockRadiusUpstream), (shockVelocityKey, Row.shockVelocity), (timeKey, Row.time)]

theorem mem_sorted (c : Str × (Row → ℝ)) : c ∈ columns ↔ c ∈ sorted := by
  have e : columns = [(timeKey, Row.time), (shockRadiusKey, Row.shockRadius), (shockRadiusUpstreamKey, Row.shockRadiusUpstream), (shockRadiusDownstreamKey, Row.shockRadiusDownstream),
    (shockRadiusInterpolatedKey, Row.shockRadiusInterpolated), (shockVelocityKey, Row.shockVelocity)] := rfl
  rw [e]
  unfold sorted
  simp only [List.mem_cons, List.not_mem_nil, or_false]
  tauto

theorem sorted_plain {c : Str × (Row → ℝ)} (h : c ∈ sorted) : Plain c.1 := by
  have : ∀ k ∈ sorted.map Prod.fst, Plain k := by unfold Plain; decide
  exact this _ (List.mem_map.2 ⟨c, h, rfl⟩)

/-- **C141.** Writing a row to the file of the time series, with a number up to that of the rows in it: all columns keep the rows before, in order, lose those from that number on, and get
the new one.  Everything else stays, in this file and all others.  Without the file it throws. -/
theorem row_file (disk : Disk Unit (Option Nat) (List ℝ)) (name : Str) (n : Nat) (r : Row) :
    (∀ o rows, disk name = some o → Series ⟨false, o⟩ rows → n ≤ rows.length →
      ∃ disk' o', writeRow disk name n r = .ok disk' ∧ disk' name = some o' ∧ Series ⟨false, o'⟩ (rows.take n ++ [r]) ∧ (∀ m, m ≠ name → disk' m = disk m) ∧
        ∀ q, (∀ c ∈ columns, q ≠ [c.1]) → objectAt (⟨false, o'⟩ : Store) q = objectAt (⟨false, o⟩ : Store) q) ∧
    (disk name = none → writeRow disk name n r = .throws .invalidArgument) := by
  constructor
  · intro o rows ho hs hn
    have hop : openFile disk name ['r', '+'] = .ok (disk, ⟨true, o⟩) := by simp [openFile, ho]
    obtain ⟨f, e, -, c, oth⟩ := writeEntries_spec (n := n) (f := ⟨true, o⟩) (sorted.map fun c => (c.1, rows.map c.2, c.2 r)) rfl (by
        intro p hp
        obtain ⟨c, hc, rfl⟩ := List.mem_map.1 hp
        exact ⟨sorted_plain hc, hs c ((mem_sorted c).2 hc), by simpa using hn⟩) (by
        show [shockRadiusKey, shockRadiusDownstreamKey, shockRadiusInterpolatedKey, shockRadiusUpstreamKey, shockVelocityKey, timeKey].Nodup
        decide)
    refine ⟨close disk name f, f.objects, ?_, by simp [close], fun d hd => ?_, fun m hm => by simp [close, hm], fun q hq => ?_⟩
    · unfold writeRow
      rw [hop, Outcome.bind_ok]
      dsimp only
      have : items r = (sorted.map fun c => (c.1, rows.map c.2, c.2 r)).map fun p => (p.1, p.2.2) := rfl
      rw [this, e]
      rfl
    · have := c (d.1, rows.map d.2, d.2 r) (List.mem_map.2 ⟨d, (mem_sorted d).1 hd, rfl⟩)
      have e2 : (rows.take n ++ [r]).map d.2 = (rows.map d.2).take n ++ [d.2 r] := by simp [List.map_take]
      rw [e2]
      exact this
    · exact oth q fun p hp => by
        obtain ⟨c, hc, rfl⟩ := List.mem_map.1 hp
        exact hq c ((mem_sorted c).2 hc)
  · intro ho
    simp [writeRow, openFile, ho, Outcome.bind]

theorem makeColumns_spec : ∀ (L : List Str) {f : Store}, f.writable = true → (∀ k ∈ L, Plain k ∧ objectAt f [k] = none) → L.Nodup →
    ∃ f', makeColumns f L = .ok f' ∧ f'.writable = true ∧ (∀ k ∈ L, Column f' k []) ∧ ∀ q, (∀ k ∈ L, q ≠ [k]) → objectAt f' q = objectAt f q
  | [], f, hw, _, _ => ⟨f, rfl, hw, by simp, fun _ _ => rfl⟩
  | k :: L, f, hw, h, hd => by
    obtain ⟨hp, hn⟩ := h k (by simp)
    rw [List.nodup_cons] at hd
    have e1 := requireDataset_new hw (root_group f) hp hn () (some 0) (some [1000])
    obtain ⟨f2, e2, w2, c2, o2⟩ := makeColumns_spec L (f := ⟨f.writable, f.objects ++ [([] ++ [k], .data ⟨(), some 0, some [1000], none⟩)]⟩) hw (fun j hj => by
      refine ⟨(h j (List.mem_cons_of_mem _ hj)).1, ?_⟩
      rw [objectAt_append (by intro e; exact hd.1 (by simpa [show j = k by simpa using e] using hj)), (h j (List.mem_cons_of_mem _ hj)).2]) hd.2
    refine ⟨f2, by unfold makeColumns; rw [e1, Outcome.bind_ok, e2], w2, ?_, fun q hq => ?_⟩
    · intro j hj
      rcases List.mem_cons.1 hj with rfl | hj
      · refine (column_iff hp).2 ⟨none, ?_, rfl⟩
        rw [o2 _ fun i hi e => hd.1 (by simpa [show j = i by simpa using e] using hi)]
        exact objectAt_new (not_root [] j) hn
      · exact c2 j hj
    · rw [o2 q fun j hj => hq j (List.mem_cons_of_mem _ hj), objectAt_append (by simpa using hq k (List.mem_cons_self ..))]

/-- **C141.** A new run: whatever file of the name there was, the file of the time series has the columns and the group of the configuration; no other file changes.  After any number of rows
all columns have them in order. -/
theorem time_series_file (disk : Disk Unit (Option Nat) (List ℝ)) (name : Str) (rows : List Row) :
    ∃ d0 d1 f, prepare disk name = .ok d0 ∧ writeRows d0 name 0 rows = .ok d1 ∧ openFile d1 name ['r'] = .ok (d1, f) ∧ Series f rows ∧
      groupAt f ["run_config".toList] = true ∧ ∀ m, m ≠ name → d1 m = disk m := by
  obtain ⟨f0, e0, w0, c0, o0⟩ := makeColumns_spec columnNames (f := ⟨true, []⟩) rfl (fun k hk => ⟨by
      have : ∀ k ∈ columnNames, Plain k := by unfold Plain; decide
      exact this k hk, by simp [objectAt]⟩) (by decide)
  have pr : Plain runConfigKey := by unfold Plain; decide
  have hn : objectAt f0 ([] ++ [runConfigKey]) = none := by
    rw [List.nil_append, o0 _ (by decide)]
    simp [objectAt]
  have e1 : requireGroup f0 [] runConfigKey = .ok (⟨f0.writable, f0.objects ++ [([] ++ [runConfigKey], .group)]⟩, [] ++ [runConfigKey]) := by
    unfold requireGroup createGroup
    rw [if_neg (by decide), (contains_spec (root_group f0) pr).1, Outcome.bind_ok, target_plain [] pr, create_new w0 (root_group f0) hn]
    have : groupAt f0 ([] ++ [runConfigKey]) = false := by unfold groupAt; rw [hn]; rfl
    rw [this]
    rfl
  have ind : ∀ (rest done : List Row) (d : Disk Unit (Option Nat) (List ℝ)) (o : List (Path × Node Unit (Option Nat) (List ℝ))), d name = some o → Series ⟨false, o⟩ done →
      groupAt (⟨false, o⟩ : Store) [runConfigKey] = true → (∀ m, m ≠ name → d m = disk m) →
      ∃ d1 f, writeRows d name done.length rest = .ok d1 ∧ openFile d1 name ['r'] = .ok (d1, f) ∧ Series f (done ++ rest) ∧ groupAt f [runConfigKey] = true ∧ ∀ m, m ≠ name → d1 m = disk m := by
    intro rest
    induction rest with
    | nil =>
      intro done d o hd hs hg hm
      exact ⟨d, ⟨false, o⟩, rfl, by simp [openFile, hd], by simpa using hs, hg, hm⟩
    | cons r rest ih =>
      intro done d o hd hs hg hm
      obtain ⟨d', o', e, hd', hs', hm', ho'⟩ := (row_file d name done.length r).1 o done hd hs le_rfl
      rw [List.take_length] at hs'
      obtain ⟨d1, f, e2, h⟩ := ih (done ++ [r]) d' o' hd' hs' (by
        unfold groupAt
        rw [ho' _ (by decide)]
        exact hg) fun m hne => by rw [hm' m hne, hm m hne]
      refine ⟨d1, f, ?_, by simpa using h⟩
      unfold writeRows
      rw [e, Outcome.bind_ok]
      simpa using e2
  obtain ⟨d1, f, h1, h2, h3, h4, h5⟩ := ind rows [] (close (fun n => if n = name then some [] else disk n) name ⟨f0.writable, f0.objects ++ [([] ++ [runConfigKey], .group)]⟩)
    (f0.objects ++ [([] ++ [runConfigKey], .group)]) (by simp [close]) (fun c hc => by
      have hk : c.1 ∈ columnNames := by
        have : ∀ k ∈ sorted.map Prod.fst, k ∈ columnNames := by decide
        exact this _ (List.mem_map.2 ⟨c, (mem_sorted c).1 hc, rfl⟩)
      refine column_congr (sorted_plain ((mem_sorted c).1 hc)) (c0 c.1 hk) (objectAt_append ?_)
      intro e
      have : c.1 = runConfigKey := by simpa using e
      rw [this] at hk
      exact absurd hk (by decide)) (by
      have := objectAt_new (w := false) (x := .group) (not_root [] runConfigKey) hn
      rw [List.nil_append] at this ⊢
      unfold groupAt
      rw [this]
      rfl) fun m hm => by simp [close, hm]
  refine ⟨_, d1, f, ?_, h1, h2, by simpa using h3, h4, h5⟩
  unfold prepare
  have : openFile disk name ['w'] = .ok (fun n => if n = name then some [] else disk n, ⟨true, []⟩) := rfl
  rw [this, Outcome.bind_ok]
  dsimp only
  rw [e0, Outcome.bind_ok, e1]
  rfl

/-- Two rows, and then the second one again, as after a restart. -/
example (disk : Disk Unit (Option Nat) (List ℝ)) (r s t : Row) : ∃ d0 d1 d2 o, prepare disk ['t'] = .ok d0 ∧ writeRows d0 ['t'] 0 [r, s] = .ok d1 ∧ writeRow d1 ['t'] 1 t = .ok d2 ∧
    d2 ['t'] = some o ∧ Series ⟨false, o⟩ [r, t] := by
  obtain ⟨d0, d1, f, h0, h1, h2, h3, -⟩ := time_series_file disk ['t'] [r, s]
  cases hd : d1 ['t'] with
  | none => simp [openFile, hd] at h2
  | some o =>
    have : f = ⟨false, o⟩ := by simpa [openFile, hd] using h2.symm
    subst this
    obtain ⟨d2, o', e, e', hs, -⟩ := (row_file d1 ['t'] 1 t).1 o [r, s] hd h3 (by simp)
    exact ⟨d0, d1, d2, o', h0, h1, e, e', hs⟩

end Verif.SedovFiles
