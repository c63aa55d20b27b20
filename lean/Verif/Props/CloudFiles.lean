import Verif.Props.CloudDiagnostics
import Verif.Props.SedovFiles
import Verif.Spec.CloudFiles

/-!
# The files of diagnostics and of the time series of the cloud program
-/

namespace Verif.CloudFiles

open Verif Verif.Nd Verif.Sedov Verif.Cloud Verif.Text Verif.Groups Real

/-- A file open for writing, and all that is in it. -/
structure Contents (f : Store) (l : List (Str × List Nat × List ℝ)) : Prop where
  sound : Sound f
  writable : f.writable = true
  data : ∀ p ∈ l, Plain p.1 ∧ objectAt f [p.1] = some (.data ⟨(), p.2.1, none, some p.2.2⟩)
  only : ∀ k, (objectAt f [k]).isSome = true ↔ k ∈ l.map Prod.fst

theorem Contents.write {f : Store} {l : List (Str × List Nat × List ℝ)} (h : Contents f l) {k : Str} (hp : Plain k) (hk : k ∉ l.map Prod.fst)
    (s : List Nat) (v : List ℝ) : ∃ f', write f [] k () s v = .ok f' ∧ Contents f' (l ++ [(k, s, v)]) := by
  have hn : objectAt f ([] ++ [k]) = none := by
    have := mt (h.only k).1 hk
    simpa using this
  have hr := requireDataset_new h.writable (show groupAt f [] = true from rfl) hp hn () s none
  have ho : objectAt (⟨f.writable, f.objects ++ [([] ++ [k], .data ⟨(), s, none, none⟩)]⟩ : Store) ([] ++ [k]) = some (.data ⟨(), s, none, none⟩) := objectAt_new (not_root [] k) hn
  have hs := sound_create (w := f.writable) (x := .data ⟨(), s, none, none⟩) h.sound (not_root [] k) (show groupAt f _ = true from rfl) hn
  have ne : ∀ {j : Str}, j ≠ k → ([j] : Path) ≠ [] ++ [k] := fun hj e => hj (by simpa using e)
  refine ⟨_, by unfold Groups.write writeValue; rw [hr, Outcome.bind_ok, if_pos h.writable], sound_put hs, h.writable, fun p hm => ?_, fun j => ?_⟩
  · rcases List.mem_append.1 hm with hm' | hm
    · have hj : p.1 ≠ k := by
        intro e
        exact hk (List.mem_map.2 ⟨p, hm', e⟩)
      refine ⟨(h.data p hm').1, ?_⟩
      rw [objectAt_put, if_neg (ne hj), objectAt_append (ne hj)]
      exact (h.data p hm').2
    · rw [List.mem_singleton] at hm
      subst hm
      refine ⟨hp, ?_⟩
      show objectAt _ ([] ++ [k]) = _
      rw [objectAt_put, if_pos rfl, ho]
      rfl
  · by_cases hj : j = k
    · subst hj
      refine ⟨fun _ => by simp, fun _ => ?_⟩
      show (objectAt _ ([] ++ [j])).isSome = true
      rw [objectAt_put, if_pos rfl, ho]
      rfl
    · rw [objectAt_put, if_neg (ne hj), objectAt_append (ne hj), h.only j]
      simp [hj]

theorem readAll_grid {A : Arr 2 ℝ} {m n : Nat} {F : Nat → Nat → ℝ} (h : Grid A m n F) : readAll A (H5.allPoints A.shape) = .ok (rows m n F) := by
  have app : ∀ {l1 l2 : List (Ix 2)} {v1 v2 : List ℝ}, readAll A l1 = .ok v1 → readAll A l2 = .ok v2 → readAll A (l1 ++ l2) = .ok (v1 ++ v2) := by
    intro l1
    induction l1 with
    | nil =>
      intro l2 v1 v2 e1 e2
      cases e1
      exact e2
    | cons a l ih =>
      intro l2 v1 v2 e1 e2
      unfold readAll at e1
      obtain ⟨x, ex, e1⟩ := Outcome.bind_eq_ok.1 e1
      obtain ⟨w, ew, e1⟩ := Outcome.bind_eq_ok.1 e1
      cases e1
      rw [List.cons_append]
      unfold readAll
      rw [ex, Outcome.bind_ok, ih ew e2]
      rfl
  have row : ∀ i, i < m → ∀ l : List Nat, (∀ j ∈ l, j < n) → readAll A (l.map fun j => (![i, j] : Ix 2)) = .ok (l.map (F i)) := by
    intro i hi l
    induction l with
    | nil => exact fun _ => rfl
    | cons a l ih =>
      intro hl
      rw [List.map_cons]
      unfold readAll
      rw [h.2.2 i hi a (hl a (by simp)), Outcome.bind_ok, ih fun k hk => hl k (List.mem_cons_of_mem _ hk)]
      rfl
  have e : H5.allPoints A.shape = (List.range m).flatMap fun i => (List.range n).map fun j => (![i, j] : Ix 2) := by
    unfold H5.allPoints
    simp only [H5.product]
    rw [h.1, show Fin.tail (fun a => List.range (A.shape a)) 0 = List.range n from congrArg List.range h.2.1]
    congr 1
    funext i
    have : ∀ r : List Nat, ((r.flatMap fun x => [(Fin.cons x Fin.elim0 : Ix 1)]).map fun t => (Fin.cons i t : Ix 2)) = r.map fun j => (![i, j] : Ix 2) := by
      intro r
      induction r with
      | nil => rfl
      | cons a r ih =>
        rw [List.flatMap_cons, List.map_append, ih]
        show _ :: _ = _ :: _
        congr 1
    simpa using this (List.range n)
  rw [e]
  unfold rows
  have : ∀ l : List Nat, (∀ i ∈ l, i < m) → readAll A (l.flatMap fun i => (List.range n).map fun j => (![i, j] : Ix 2)) = .ok (l.flatMap fun i => (List.range n).map (F i)) := by
    intro l
    induction l with
    | nil => exact fun _ => rfl
    | cons a l ih =>
      intro hl
      rw [List.flatMap_cons, List.flatMap_cons]
      exact app (row a (hl a (by simp)) _ fun j hj => List.mem_range.1 hj) (ih fun k hk => hl k (List.mem_cons_of_mem _ hk))
  exact this _ fun i hi => List.mem_range.1 hi

/-- What is put into the file for a field. -/
inductive Stored : Field → List Nat → List ℝ → Prop
  | number (x) : Stored (.number x) [] [x]
  | line {A n y} (h : Line A n y) : Stored (.line A) [n] (column n y)
  | grid {A m n F} (h : Grid A m n F) : Stored (.grid A) [m, n] (rows m n F)

theorem Contents.field {f : Store} {l : List (Str × List Nat × List ℝ)} (h : Contents f l) {k : Str} (hp : Plain k) (hk : k ∉ l.map Prod.fst) {x : Field}
    {s : List Nat} {v : List ℝ} (hx : Stored x s v) : ∃ f', writeField f k x = .ok f' ∧ Contents f' (l ++ [(k, s, v)]) := by
  cases hx with
  | number x => exact h.write hp hk _ _
  | line hA =>
    unfold writeField
    dsimp only
    rw [SedovFiles.readAll_line hA, Outcome.bind_ok, hA.1]
    exact h.write hp hk _ _
  | grid hA =>
    unfold writeField
    dsimp only
    rw [readAll_grid hA, Outcome.bind_ok, hA.1, hA.2.1]
    exact h.write hp hk _ _

theorem Contents.fields : ∀ {r : List (Str × Field)} {w : List (Str × List Nat × List ℝ)} {f : Store} {l : List (Str × List Nat × List ℝ)}, Contents f l →
    List.Forall₂ (fun a b => a.1 = b.1 ∧ Stored a.2 b.2.1 b.2.2) r w → (∀ p ∈ w, Plain p.1) → ((l.map Prod.fst) ++ w.map Prod.fst).Nodup →
    ∃ f', writeFields f r = .ok f' ∧ Contents f' (l ++ w)
  | _, _, f, l, h, .nil, _, _ => ⟨f, rfl, by simpa using h⟩
  | (k, x) :: r, (k', s, v) :: w, f, l, h, .cons hx ht, hw, hd => by
    obtain ⟨rfl, hx⟩ : k = k' ∧ Stored x s v := hx
    have hk : k ∉ l.map Prod.fst := by
      intro hm
      exact (List.nodup_append.1 hd).2.2 k hm k (by simp) rfl
    obtain ⟨f1, e1, c1⟩ := h.field (hw (k, s, v) (by simp)) hk hx
    obtain ⟨f2, e2, c2⟩ := Contents.fields c1 ht (fun p hp => hw p (List.mem_cons_of_mem _ hp)) (by simpa using hd)
    exact ⟨f2, by unfold writeFields; rw [e1, Outcome.bind_ok, e2], by simpa using c2⟩

theorem empty_contents : Contents ⟨true, []⟩ [] :=
  ⟨⟨by simp, by intro x hx; cases hx⟩, rfl, by simp, by simp [objectAt]⟩

theorem Contents.holds {f : Store} {l : List (Str × List Nat × List ℝ)} (h : Contents f l) : ∀ p ∈ l, Holds ⟨false, f.objects⟩ p.1 p.2.1 p.2.2 := fun p hp => by
  obtain ⟨h1, h2⟩ := h.data p hp
  unfold Holds openDataset
  rw [target_plain [] h1, List.nil_append, show objectAt (⟨false, f.objects⟩ : Store) [p.1] = _ from h2]

/-- The names of the datasets. -/
def keys : List Str := [timeKey, gasPressureKey, massDensityKey, specificEntropyKey, radialEnergyFlowKey, radialGammaBetaKey, radialVerticesKey, polarVerticesKey, solidAngleAtThetaKey, totalEnergyAtThetaKey, shockMidpointRadiusKey, shockUpstreamRadiusKey, shockPressureRadiusKey, shockLuminosityRadiusKey, postshockFlowGammaKey, postshockFlowPowerKey, postshockFlowPower02Key, postshockFlowPower04Key, postshockFlowPower08Key, postshockFlowPower16Key, postshockFlowPower32Key, postshockFlowPower64Key, postshockFlowPowerMaxKey]

theorem keys_plain : ∀ k ∈ keys, Plain k := by unfold Plain; decide

theorem keys_nodup : keys.Nodup := by decide

/-- **C143, partial.** The file of diagnostics, for a grid of gas whose primitive variables can be recovered: whatever file of the name there was, it has the time, the pressure, density, specific entropy, energy flow and
velocity of all cells, the radii and angles of the mesh, the solid angle and energy of each bin in angle (`z`, see C103) and the shock of each bin (`y`, see C115), all in physical units and under the names of the fields, and nothing else; no other
file changes. -/
theorem diagnostics_file_partial (u : UnitSystem) (T : ℝ) (s : Solution) {m n : Nat} {r q : Nat → ℝ} {U P : Nat → Nat → Vec 5 ℝ}
    (hr : Line s.radial (m + 1) r) (hq : Line s.polar (n + 1) q) (hU : Grid s.conserved m n U) (h2 : 2 ≤ m) (h1 : 1 ≤ n)
    (hsz : (m + 1) * (n + 1) < 2 ^ 31) (hr0 : 0 < r 0) (hrm : ∀ i, i < m → r i < r (i + 1))
    (hq0 : 0 ≤ q 0) (hqm : ∀ j, j < n → q j < q (j + 1)) (hqn : q n ≤ π) (ht : u.time ≠ 0) (hlen : u.length ≠ 0)
    (hP : ∀ i, i < m → ∀ j, j < n → Srhd.recover (fun a => U i j a / wedge (r i) (r (i + 1)) (q j) (q (j + 1))) (4 / 3) T = .ok (P i j)) (disk : Disk Unit (List Nat) (List ℝ)) (name : Str) :
    ∃ disk' f A B y z, writeDiagnostics u T s disk name = .ok disk' ∧ (∀ k, k ≠ name → disk' k = disk k) ∧ openFile disk' name ['r'] = .ok (disk', f) ∧
      shockColumns u T s = .ok A ∧ Line A n y ∧ angularFields u s = .ok B ∧ Line B n z ∧
      Holds f "time".toList [] [s.time * u.time] ∧
      Holds f "gas_pressure".toList [m, n] (rows m n fun i j => P i j 4 * (u.mass * Envelope.lightSpeed ^ 2 / u.length ^ 3)) ∧
      Holds f "mass_density".toList [m, n] (rows m n fun i j => P i j 0 * (u.mass / u.length ^ 3)) ∧
      Holds f "specific_entropy".toList [m, n] (rows m n fun i j => entropyOf (4 / 3) (P i j)) ∧
      Holds f "radial_energy_flow".toList [m, n] (rows m n fun i j => current (P i j) * zone (r i) (q j) (q (j + 1)) * (u.mass * Envelope.lightSpeed ^ 2 / u.time)) ∧
      Holds f "radial_gamma_beta".toList [m, n] (rows m n fun i j => P i j 1) ∧
      Holds f "radial_vertices".toList [m + 1] (column (m + 1) fun i => r i * u.length) ∧
      Holds f "polar_vertices".toList [n + 1] (column (n + 1) q) ∧
      Holds f "solid_angle_at_theta".toList [n] (column n fun j => (z j).1) ∧
      Holds f "total_energy_at_theta".toList [n] (column n fun j => (z j).2) ∧
      Holds f "shock_midpoint_radius".toList [n] (column n fun j => (y j).midpointRadius) ∧
      Holds f "shock_upstream_radius".toList [n] (column n fun j => (y j).upstreamRadius) ∧
      Holds f "shock_pressure_radius".toList [n] (column n fun j => (y j).pressureRadius) ∧
      Holds f "shock_luminosity_radius".toList [n] (column n fun j => (y j).luminosityRadius) ∧
      Holds f "postshock_flow_gamma".toList [n] (column n fun j => (y j).gamma) ∧
      Holds f "postshock_flow_power".toList [n] (column n fun j => (y j).power) ∧
      Holds f "postshock_flow_power02".toList [n] (column n fun j => (y j).powers 0) ∧
      Holds f "postshock_flow_power04".toList [n] (column n fun j => (y j).powers 1) ∧
      Holds f "postshock_flow_power08".toList [n] (column n fun j => (y j).powers 2) ∧
      Holds f "postshock_flow_power16".toList [n] (column n fun j => (y j).powers 3) ∧
      Holds f "postshock_flow_power32".toList [n] (column n fun j => (y j).powers 4) ∧
      Holds f "postshock_flow_power64".toList [n] (column n fun j => (y j).powers 5) ∧
      Holds f "postshock_flow_power_max".toList [n] (column n fun j => (y j).powerMax) ∧
      size f [] = 23 := by
  have b1 : m + 1 ≤ (m + 1) * (n + 1) := Nat.le_mul_of_pos_right _ (by omega)
  have b2 : n + 1 ≤ (m + 1) * (n + 1) := Nat.le_mul_of_pos_left _ (by omega)
  obtain ⟨A, y, eA, hA, -⟩ := shock_columns_partial u T s hr hq hU h2 h1 (by omega) (by omega) hr0 hrm hq0 hqm hqn ht hP
  obtain ⟨B, z, eB, hB, -⟩ := angular_fields u s hr hq hU (by omega) (by omega) hr0.ne'
  obtain ⟨c, ec, c0, c1, c2, c3, c4, c5, c6, c7⟩ := cell_fields_partial u T s hr hq hU (by omega) h1 hsz hr0 hrm hq0 hqm hqn ht hlen hP
  obtain ⟨f, ef, cf⟩ := Contents.fields (w := [
    (timeKey, [], [s.time * u.time]),
    (gasPressureKey, [m, n], (rows m n fun i j => P i j 4 * (u.mass * Envelope.lightSpeed ^ 2 / u.length ^ 3))),
    (massDensityKey, [m, n], (rows m n fun i j => P i j 0 * (u.mass / u.length ^ 3))),
    (specificEntropyKey, [m, n], (rows m n fun i j => entropyOf (4 / 3) (P i j))),
    (radialEnergyFlowKey, [m, n], (rows m n fun i j => current (P i j) * zone (r i) (q j) (q (j + 1)) * (u.mass * Envelope.lightSpeed ^ 2 / u.time))),
    (radialGammaBetaKey, [m, n], (rows m n fun i j => P i j 1)),
    (radialVerticesKey, [m + 1], (column (m + 1) fun i => r i * u.length)),
    (polarVerticesKey, [n + 1], (column (n + 1) q)),
    (solidAngleAtThetaKey, [n], (column n fun j => (z j).1)),
    (totalEnergyAtThetaKey, [n], (column n fun j => (z j).2)),
    (shockMidpointRadiusKey, [n], (column n fun j => (y j).midpointRadius)),
    (shockUpstreamRadiusKey, [n], (column n fun j => (y j).upstreamRadius)),
    (shockPressureRadiusKey, [n], (column n fun j => (y j).pressureRadius)),
    (shockLuminosityRadiusKey, [n], (column n fun j => (y j).luminosityRadius)),
    (postshockFlowGammaKey, [n], (column n fun j => (y j).gamma)),
    (postshockFlowPowerKey, [n], (column n fun j => (y j).power)),
    (postshockFlowPower02Key, [n], (column n fun j => (y j).powers 0)),
    (postshockFlowPower04Key, [n], (column n fun j => (y j).powers 1)),
    (postshockFlowPower08Key, [n], (column n fun j => (y j).powers 2)),
    (postshockFlowPower16Key, [n], (column n fun j => (y j).powers 3)),
    (postshockFlowPower32Key, [n], (column n fun j => (y j).powers 4)),
    (postshockFlowPower64Key, [n], (column n fun j => (y j).powers 5)),
    (postshockFlowPowerMaxKey, [n], (column n fun j => (y j).powerMax))]) (r := datasets ⟨c, B, A⟩) empty_contents (by
      unfold datasets
      refine .cons ⟨rfl, ?_⟩ (.cons ⟨rfl, .grid c4⟩ (.cons ⟨rfl, .grid c5⟩ (.cons ⟨rfl, .grid c3⟩ (.cons ⟨rfl, .grid c7⟩ (.cons ⟨rfl, .grid c6⟩ (.cons ⟨rfl, .line c1⟩ (.cons ⟨rfl, .line c2⟩
        (.cons ⟨rfl, .line (hB.map fun x => x.1)⟩ (.cons ⟨rfl, .line (hB.map fun x => x.2)⟩ (.cons ⟨rfl, .line (hA.map fun x => x.midpointRadius)⟩ (.cons ⟨rfl, .line (hA.map fun x => x.upstreamRadius)⟩
        (.cons ⟨rfl, .line (hA.map fun x => x.pressureRadius)⟩ (.cons ⟨rfl, .line (hA.map fun x => x.luminosityRadius)⟩ (.cons ⟨rfl, .line (hA.map fun x => x.gamma)⟩ (.cons ⟨rfl, .line (hA.map fun x => x.power)⟩
        (.cons ⟨rfl, .line (hA.map fun x => x.powers 0)⟩ (.cons ⟨rfl, .line (hA.map fun x => x.powers 1)⟩ (.cons ⟨rfl, .line (hA.map fun x => x.powers 2)⟩ (.cons ⟨rfl, .line (hA.map fun x => x.powers 3)⟩
        (.cons ⟨rfl, .line (hA.map fun x => x.powers 4)⟩ (.cons ⟨rfl, .line (hA.map fun x => x.powers 5)⟩ (.cons ⟨rfl, .line (hA.map fun x => x.powerMax)⟩ .nil))))))))))))))))))))))
      rw [← c0]
      exact .number _) (fun p hp => keys_plain p.1 (List.mem_map.2 ⟨p, hp, rfl⟩)) keys_nodup
  have rd := cf.holds
  rw [List.nil_append] at rd
  simp only [List.forall_mem_cons] at rd
  refine ⟨close (fun n => if n = name then some [] else disk n) name f, ⟨false, f.objects⟩, A, B, y, z, ?_, fun k hk => by simp [close, hk], by simp [openFile, close], eA, hA, eB, hB, ?_⟩
  · unfold writeDiagnostics
    have : openFile disk name ['w'] = .ok (fun n => if n = name then some [] else disk n, ⟨true, []⟩) := rfl
    rw [this, Outcome.bind_ok]
    unfold makeFields
    rw [eA, Outcome.bind_ok, eB, Outcome.bind_ok, ec, Outcome.map_ok, Outcome.bind_ok, ef]
    rfl
  · obtain ⟨g0, g1, g2, g3, g4, g5, g6, g7, g8, g9, g10, g11, g12, g13, g14, g15, g16, g17, g18, g19, g20, g21, g22, -⟩ := rd
    refine ⟨g0, g1, g2, g3, g4, g5, g6, g7, g8, g9, g10, g11, g12, g13, g14, g15, g16, g17, g18, g19, g20, g21, g22, ?_⟩
    have p : (members f []).Perm keys := by
      refine (List.perm_ext_iff_of_nodup (cf.sound.members_nodup []) keys_nodup).2 fun k => ?_
      rw [mem_members, List.nil_append, cf.only k]
      rfl
    exact p.length_eq

/-- Four shells of gas. -/
example (u : UnitSystem) (ht : 0 < u.time) (hlen : 0 < u.length) (disk : Disk Unit (List Nat) (List ℝ)) : ∃ disk' f, writeDiagnostics u (1 / 100) fourState disk ['d'] = .ok disk' ∧
    openFile disk' ['d'] ['r'] = .ok (disk', f) ∧ Holds f "radial_gamma_beta".toList [4, 1] [1875 / 2516, 0, 0, 0] ∧ Holds f "polar_vertices".toList [2] [0, π] := by
  obtain ⟨h1, h2, h3, h4⟩ := four_meets
  have hrm : ∀ i, i < 4 → ((i : Nat) : ℝ) + 1 < ((i + 1 : Nat) : ℝ) + 1 := fun i _ => by
    push_cast
    linarith
  have hqm : ∀ j, j < 1 → π * ((j : Nat) : ℝ) < π * ((j + 1 : Nat) : ℝ) := fun j _ => by
    push_cast
    linarith [pi_pos]
  obtain ⟨d, f, A, B, y, z, g1, -, g2, -, -, -, -, -, -, -, -, -, g3, -, g4, -⟩ := diagnostics_file_partial u (1 / 100) fourState (P := fun i _ => fourPrims i) h1 h2 h3 (by norm_num) (by norm_num) (by norm_num)
    (by norm_num) hrm (by simp) hqm (by simp) ht.ne' hlen.ne' h4 disk ['d']
  refine ⟨d, f, g1, g2, ?_, ?_⟩
  · exact g3
  · have e : column (1 + 1) (fun j => π * (j : ℝ)) = [0, π] := by simp [column, List.range_succ]
    rw [← e]
    exact g4

/-- **C143, violated.** The file of the time series has columns for the time and for the radius of the shock, but they stay empty for ever: after any number of states written, neither has an entry. -/
theorem time_series_violated (disk : Disk Unit (Option Nat) (List ℝ)) (name : Str) (states : List Solution) :
    ∃ d0 d1 f, prepare disk name = .ok d0 ∧ writeSeries d0 name states = .ok d1 ∧ openFile d1 name ['r'] = .ok (d1, f) ∧
      SedovFiles.Column f "time".toList [] ∧ SedovFiles.Column f "shock_radius".toList [] ∧ groupAt f ["config".toList] = true ∧ ∀ m, m ≠ name → d1 m = disk m := by
  have pl : ∀ k ∈ [SedovFiles.timeKey, SedovFiles.shockRadiusKey], Plain k := by unfold Plain; decide
  obtain ⟨f0, e0, w0, c0, o0⟩ := SedovFiles.makeColumns_spec [SedovFiles.timeKey, SedovFiles.shockRadiusKey] (f := ⟨true, []⟩) rfl (fun k hk => ⟨pl k hk, by simp [objectAt]⟩) (by decide)
  have pr : Plain configKey := by unfold Plain; decide
  have hn : objectAt f0 ([] ++ [configKey]) = none := by
    rw [List.nil_append, o0 _ (by decide)]
    simp [objectAt]
  have e1 : requireGroup f0 [] configKey = .ok (⟨f0.writable, f0.objects ++ [([] ++ [configKey], .group)]⟩, [] ++ [configKey]) := by
    unfold requireGroup createGroup
    rw [if_neg (by decide), (contains_spec (SedovFiles.root_group f0) pr).1, Outcome.bind_ok, target_plain [] pr, create_new w0 (SedovFiles.root_group f0) hn]
    have : groupAt f0 ([] ++ [configKey]) = false := by unfold groupAt; rw [hn]; rfl
    rw [this]
    rfl
  have ws : ∀ (l : List Solution) (d : Disk Unit (Option Nat) (List ℝ)), writeSeries d name l = .ok d := by
    intro l
    induction l with
    | nil => exact fun _ => rfl
    | cons s l ih => exact fun d => ih d
  refine ⟨SedovFiles.close (fun n => if n = name then some [] else disk n) name ⟨f0.writable, f0.objects ++ [([] ++ [configKey], .group)]⟩, _, ⟨false, f0.objects ++ [([] ++ [configKey], .group)]⟩, ?_, ws _ _,
    by simp [openFile, SedovFiles.close], ?_, ?_, ?_, fun m hm => by simp [SedovFiles.close, hm]⟩
  · unfold prepare
    have : openFile disk name ['w'] = .ok (fun n => if n = name then some [] else disk n, ⟨true, []⟩) := rfl
    rw [this, Outcome.bind_ok, e0, Outcome.bind_ok, e1]
    rfl
  · exact SedovFiles.column_congr (pl SedovFiles.timeKey (by simp)) (c0 SedovFiles.timeKey (by simp)) (objectAt_append (by decide))
  · exact SedovFiles.column_congr (pl SedovFiles.shockRadiusKey (by simp)) (c0 SedovFiles.shockRadiusKey (by simp)) (objectAt_append (by decide))
  · have := objectAt_new (w := false) (x := .group) (not_root [] configKey) hn
    rw [List.nil_append] at this
    unfold groupAt
    rw [show (["config".toList] : Path) = [configKey] from rfl, List.nil_append, this]
    rfl

end Verif.CloudFiles
