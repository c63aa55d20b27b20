import Verif.Lemmas.Hdf5

/-!
# C130: what the programs write to their checkpoints is what they read back
-/

namespace Verif.File
open Verif Verif.Text Verif.TreeSerialize Verif.Tree

variable {δ β : Type}

/-! ### Trees of arrays -/

/-- A tree of full arrays written as a group is read back, in whatever order the library lists the names. -/
theorem Elem.Lawful.tree {E : Elem β δ} (h : E.Lawful) {R rank : Nat} {sh : Nat → Outcome Nat} (hs : Shift sh) (hR : R < 2 ^ 64)
    (order : Members δ → List Str) (ho : ∀ g, (order g).Perm (g.map Prod.fst)) {t : Tree (R + 1) (Arr β)} (hD : DepthLe t 30)
    (hA : ∀ i a, LeafAt t i a → a.Full rank) :
    ∃ x, Stores (E.writeTree sh) (E.readTree rank sh order) t x := by
  classical
  obtain ⟨gA, hgA, hread⟩ := tree_file_round_trip hs hR t hD
  obtain ⟨p, hp, hpl⟩ := tree_pair_indexes t 30 hD (by norm_num)
  have hpath := forall₂_paths p
  have hmem : ∀ q ∈ p.sink, LeafAt t q.1 q.2 := by
    intro q hq
    rw [sink_eq_leaves] at hq
    obtain ⟨i, _, hi⟩ := forall₂_right hpath hq
    obtain ⟨h1, h2⟩ := (hpl i q).1 hi
    rw [h1]; exact h2
  have hfst : p.sink.map Prod.fst = paths p := by
    rw [sink_eq_leaves]
    have : List.Forall₂ (fun i q => q.1 = i) (paths p) (leaves p) :=
      List.Forall₂.imp (fun i q h => ((hpl i q).1 h).1) hpath
    generalize paths p = l at this
    generalize leaves p = m at this
    induction this with
    | nil => rfl
    | cons h _ ih => simp [h, ih]
  have hnd : (p.sink.map Prod.fst).Nodup := by rw [hfst]; exact nodup_paths p
  have hv : ∀ q ∈ p.sink, q.1.Valid ∧ q.1.level ≤ 30 := fun q hq => ⟨(hmem q hq).valid, hD _ _ (hmem q hq)⟩
  obtain ⟨ns, hns, hw⟩ := writeLeaves_eq hs hR p.sink hv hnd [] (by simp)
  obtain ⟨hnames, hndn, hin⟩ := names_facts hs hR hns hv hnd
  rw [List.nil_append] at hw
  have hgA' : gA = List.zipWith (fun n (q : Index (R + 1) × Arr β) => (n, q.2)) ns p.sink := by
    unfold TreeSerialize.writeTree at hgA
    rw [hp, Outcome.bind_ok, hw] at hgA
    injection hgA with e
    exact e.symm
  -- the datasets
  let enc : Arr β → Node δ := fun a => if ha : a.Full rank then (h.array ha).choose else .group []
  have hst : ∀ q ∈ p.sink, Stores E.writeArray (E.readArray rank) q.2 (enc q.2) := by
    intro q hq
    have ha := hA _ _ (hmem q hq)
    have : enc q.2 = (h.array ha).choose := dif_pos ha
    rw [this]
    exact (h.array ha).choose_spec
  have hwr := writeArrays_eq hns hndn (fun q hq => (hst q hq).1) [] (by simp)
  rw [List.nil_append] at hwr
  have hz : List.zipWith (fun n (q : Index (R + 1) × Arr β) => (n, enc q.2)) ns p.sink = gA.map fun q => (q.1, enc q.2) := by
    rw [hgA', List.map_zipWith]
  have hnames' : (gA.map fun q => (q.1, enc q.2)).map Prod.fst = ns := by
    rw [List.map_map, ← hnames, hgA']; rfl
  rw [hz] at hwr
  refine ⟨.group (gA.map fun q => (q.1, enc q.2)), inGroup_stores (f := fun ms (t : Tree (R + 1) (Arr β)) => t.pairIndexes.bind fun p => writeArrays E sh p.sink ms)
    (r := fun ms => readArrays E rank sh ms (order ms) (.leaf default)) ?_ ?_⟩
  · show t.pairIndexes.bind _ = _
    rw [hp]; exact hwr
  have hperm := ho (gA.map fun q => (q.1, enc q.2))
  rw [hnames'] at hperm
  show readArrays E rank sh _ (order (gA.map fun q => (q.1, enc q.2))) _ = _
  rw [readArrays_eq (gA := gA), hread _ _ ?_]
  · rw [hgA', hnames, ← hgA']; exact hperm
  · intro n hn
    obtain ⟨q, hq, hf⟩ := forall₂_left hns (hperm.mem_iff.1 hn)
    have hqA : (n, q.2) ∈ gA := by rw [hgA']; exact hin n q hf hq
    rw [read_mem (by rw [hgA', hnames]; exact hndn) hqA]
    exact (hst q hq).2 _ n (read_mem (by rw [hnames']; exact hndn) (List.mem_map.2 ⟨_, hqA, rfl⟩))

/-! ### The programs -/

/-- The names of a list of members. -/
macro "fresh" : tactic => `(tactic| (simp only [List.map_append, List.map_cons, List.map_nil, List.nil_append, List.cons_append]; decide))

/-- C130, cloud program: a solution - two axes of vertices and a rank-2 array of five conserved quantities, of any sizes - is read back. -/
theorem cloud_file [Zero δ] (s : CloudSolution δ) (h1 : s.radialVertices.Full 1) (h2 : s.polarVertices.Full 1) (h3 : s.conserved.Full 2) :
    ∃ g, writeCloud [] s = .ok g ∧ readCloud g = .ok s := by
  obtain ⟨x1, w1, r1⟩ := double_lawful.value s.time
  obtain ⟨x2, w2, r2⟩ := (rational_lawful (δ := δ)).value s.iteration
  obtain ⟨x3, w3, r3⟩ := double_lawful.array h1
  obtain ⟨x4, w4, r4⟩ := double_lawful.array h2
  obtain ⟨x5, w5, r5⟩ := (seq_lawful 5).array h3
  refine ⟨[("time".toList, x1), ("iteration".toList, x2), ("radial_vertices".toList, x3), ("polar_vertices".toList, x4), ("conserved".toList, x5)], ?_, ?_⟩
  · unfold writeCloud
    rw [w1 _ _ (by fresh), Outcome.bind_ok, w2 _ _ (by fresh), Outcome.bind_ok, w3 _ _ (by fresh), Outcome.bind_ok, w4 _ _ (by fresh),
      Outcome.bind_ok, w5 _ _ (by fresh)]
    rfl
  · have hn : ∀ {n : Str} {x : Node δ}, (n, x) ∈ [("time".toList, x1), ("iteration".toList, x2), ("radial_vertices".toList, x3), ("polar_vertices".toList, x4), ("conserved".toList, x5)] →
        TreeSerialize.Group.read [("time".toList, x1), ("iteration".toList, x2), ("radial_vertices".toList, x3), ("polar_vertices".toList, x4), ("conserved".toList, x5)] n = .ok x :=
      fun h => read_mem (by fresh) h
    unfold readCloud
    rw [r1 _ _ (hn (by simp)), Outcome.bind_ok, r2 _ _ (hn (by simp)), Outcome.bind_ok, r3 _ _ (hn (by simp)), Outcome.bind_ok,
      r4 _ _ (hn (by simp)), Outcome.bind_ok, r5 _ _ (hn (by simp)), Outcome.bind_ok]

example : ∃ g, writeCloud [] (⟨1, (7, 2), ⟨[3], [1, 2, 4]⟩, ⟨[2], [0, 3]⟩, ⟨[2, 1], [fun i => i, fun i => 2 * i]⟩⟩ : CloudSolution ℤ) = .ok g ∧
    readCloud g = .ok (⟨1, (7, 2), ⟨[3], [1, 2, 4]⟩, ⟨[2], [0, 3]⟩, ⟨[2, 1], [fun i => i, fun i => 2 * i]⟩⟩ : CloudSolution ℤ) :=
  cloud_file _ ⟨rfl, rfl⟩ ⟨rfl, rfl⟩ ⟨rfl, rfl⟩

/-- C130, Sedov program, with any number of conserved quantities. -/
theorem sedov_file [Zero δ] {k : Nat} (s : SedovSolution k δ) (h1 : s.vertices.Full 1) (h2 : s.conserved.Full 1) :
    ∃ g, writeSedov [] s = .ok g ∧ readSedov k g = .ok s := by
  obtain ⟨x1, w1, r1⟩ := double_lawful.value s.time
  obtain ⟨x2, w2, r2⟩ := (rational_lawful (δ := δ)).value s.iteration
  obtain ⟨x3, w3, r3⟩ := double_lawful.array h1
  obtain ⟨x4, w4, r4⟩ := (seq_lawful k).array h2
  refine ⟨[("time".toList, x1), ("iteration".toList, x2), ("vertices".toList, x3), ("conserved".toList, x4)], ?_, ?_⟩
  · unfold writeSedov
    rw [w1 _ _ (by fresh), Outcome.bind_ok, w2 _ _ (by fresh), Outcome.bind_ok, w3 _ _ (by fresh), Outcome.bind_ok, w4 _ _ (by fresh)]
    rfl
  · have hn : ∀ {n : Str} {x : Node δ}, (n, x) ∈ [("time".toList, x1), ("iteration".toList, x2), ("vertices".toList, x3), ("conserved".toList, x4)] →
        TreeSerialize.Group.read [("time".toList, x1), ("iteration".toList, x2), ("vertices".toList, x3), ("conserved".toList, x4)] n = .ok x :=
      fun h => read_mem (by fresh) h
    unfold readSedov
    rw [r1 _ _ (hn (by simp)), Outcome.bind_ok, r2 _ _ (hn (by simp)), Outcome.bind_ok, r3 _ _ (hn (by simp)), Outcome.bind_ok,
      r4 _ _ (hn (by simp)), Outcome.bind_ok]

example : ∃ g, writeSedov [] (⟨5, (3, 1), ⟨[3], [1, 2, 4]⟩, ⟨[2], [![1, 2, 3], ![4, 5, 6]]⟩⟩ : SedovSolution 3 ℤ) = .ok g ∧
    readSedov 3 g = .ok (⟨5, (3, 1), ⟨[3], [1, 2, 4]⟩, ⟨[2], [![1, 2, 3], ![4, 5, 6]]⟩⟩ : SedovSolution 3 ℤ) :=
  sedov_file _ ⟨rfl, rfl⟩ ⟨rfl, rfl⟩

/-- C130, boilerplate program. -/
theorem boilerplate_file [Zero δ] (s : BoilerplateSolution δ) (h1 : s.vertices.Full 1) (h2 : s.solution.Full 1) :
    ∃ g, writeBoilerplate [] s = .ok g ∧ readBoilerplate g = .ok s := by
  obtain ⟨x1, w1, r1⟩ := double_lawful.value s.time
  obtain ⟨x2, w2, r2⟩ := (int_lawful (δ := δ)).value s.iteration
  obtain ⟨x3, w3, r3⟩ := double_lawful.array h1
  obtain ⟨x4, w4, r4⟩ := double_lawful.array h2
  refine ⟨[("time".toList, x1), ("iteration".toList, x2), ("vertices".toList, x3), ("solution".toList, x4)], ?_, ?_⟩
  · unfold writeBoilerplate
    rw [w1 _ _ (by fresh), Outcome.bind_ok, w2 _ _ (by fresh), Outcome.bind_ok, w3 _ _ (by fresh), Outcome.bind_ok, w4 _ _ (by fresh)]
    rfl
  · have hn : ∀ {n : Str} {x : Node δ}, (n, x) ∈ [("time".toList, x1), ("iteration".toList, x2), ("vertices".toList, x3), ("solution".toList, x4)] →
        TreeSerialize.Group.read [("time".toList, x1), ("iteration".toList, x2), ("vertices".toList, x3), ("solution".toList, x4)] n = .ok x :=
      fun h => read_mem (by fresh) h
    unfold readBoilerplate
    rw [r1 _ _ (hn (by simp)), Outcome.bind_ok, r2 _ _ (hn (by simp)), Outcome.bind_ok, r3 _ _ (hn (by simp)), Outcome.bind_ok,
      r4 _ _ (hn (by simp)), Outcome.bind_ok]

example : ∃ g, writeBoilerplate [] (⟨5, 3, ⟨[3], [1, 2, 4]⟩, ⟨[2], [8, 9]⟩⟩ : BoilerplateSolution ℤ) = .ok g ∧
    readBoilerplate g = .ok (⟨5, 3, ⟨[3], [1, 2, 4]⟩, ⟨[2], [8, 9]⟩⟩ : BoilerplateSolution ℤ) :=
  boilerplate_file _ ⟨rfl, rfl⟩ ⟨rfl, rfl⟩

/-- Both trees of a solution have depth at most 30 and arrays of rank two. -/
def BinarySolution.Fine (s : BinarySolution δ) : Prop :=
  (DepthLe s.conservedU 30 ∧ ∀ i a, LeafAt s.conservedU i a → a.Full 2) ∧ DepthLe s.conservedQ 30 ∧ ∀ i a, LeafAt s.conservedQ i a → a.Full 2

/-- C130, binary program: a solution - two trees of blocks, accreted and ejected amounts, orbits - is read back by a program that arranges tuples in memory as the writer did. -/
theorem binary_file_partial [Zero δ] [One δ] {sh : Nat → Outcome Nat} (hs : Shift sh) (mem : Equiv.Perm (Fin 3)) (order : Members δ → List Str)
    (ho : ∀ g, (order g).Perm (g.map Prod.fst)) (s : BinarySolution δ) (hf : s.Fine) :
    ∃ g, writeBinary mem sh [] s = .ok g ∧ readBinary mem sh order g = .ok s := by
  obtain ⟨⟨hu1, hu2⟩, hq1, hq2⟩ := hf
  obtain ⟨x1, w1, r1⟩ := double_lawful.value s.time
  obtain ⟨x2, w2, r2⟩ := (rational_lawful (δ := δ)).value s.iteration
  obtain ⟨x3, w3, r3⟩ := (tuple_lawful mem).tree hs (by norm_num) order ho hu1 hu2
  obtain ⟨x4, w4, r4⟩ := (tuple_lawful mem).tree hs (by norm_num) order ho hq1 hq2
  obtain ⟨x5, w5, r5⟩ := (seq_lawful 2).value s.massAccretedOn
  obtain ⟨x6, w6, r6⟩ := double_lawful.value s.angularMomentumEjected
  obtain ⟨x7, w7, r7⟩ := (seq_lawful 2).value s.integratedTorqueOn
  obtain ⟨x8, w8, r8⟩ := (seq_lawful 2).value s.workDoneOn
  obtain ⟨x9, w9, r9⟩ := double_lawful.value s.massEjected
  obtain ⟨x10, w10, r10⟩ := (seq_lawful 2).value s.angularMomentumAccretedOn
  obtain ⟨x11, w11, r11⟩ := fullElements_lawful.value s.orbitalElementsAcc
  obtain ⟨x12, w12, r12⟩ := fullElements_lawful.value s.orbitalElementsGrav
  obtain ⟨x13, w13, r13⟩ := fullElements_lawful.value s.orbitalElements
  obtain ⟨g, hg⟩ : ∃ g : Members δ, g = [("time".toList, x1), ("iteration".toList, x2), ("conserved_u".toList, x3), ("conserved_q".toList, x4),
    ("mass_accreted_on".toList, x5), ("angular_momentum_ejected".toList, x6), ("integrated_torque_on".toList, x7), ("work_done_on".toList, x8),
    ("mass_ejected".toList, x9), ("angular_momentum_accreted_on".toList, x10), ("orbital_elements_acc".toList, x11),
    ("orbital_elements_grav".toList, x12), ("orbital_elements".toList, x13)] := ⟨_, rfl⟩
  refine ⟨g, ?_, ?_⟩
  · unfold writeBinary
    rw [w1 _ _ (by fresh), Outcome.bind_ok, w2 _ _ (by fresh), Outcome.bind_ok, w3 _ _ (by fresh), Outcome.bind_ok, w4 _ _ (by fresh),
      Outcome.bind_ok, w5 _ _ (by fresh), Outcome.bind_ok, w6 _ _ (by fresh), Outcome.bind_ok, w7 _ _ (by fresh), Outcome.bind_ok,
      w8 _ _ (by fresh), Outcome.bind_ok, w9 _ _ (by fresh), Outcome.bind_ok, w10 _ _ (by fresh), Outcome.bind_ok, w11 _ _ (by fresh),
      Outcome.bind_ok, w12 _ _ (by fresh), Outcome.bind_ok, w13 _ _ (by fresh), hg]
    rfl
  · have hn : ∀ {n : Str} {x : Node δ}, (n, x) ∈ g → TreeSerialize.Group.read g n = .ok x := fun h => read_mem (by rw [hg]; fresh) h
    unfold readBinary
    rw [r1 _ _ (hn (by simp [hg])), Outcome.bind_ok, r2 _ _ (hn (by simp [hg])), Outcome.bind_ok, r3 _ _ (hn (by simp [hg])), Outcome.bind_ok,
      r4 _ _ (hn (by simp [hg])), Outcome.bind_ok, r5 _ _ (hn (by simp [hg])), Outcome.bind_ok, r6 _ _ (hn (by simp [hg])), Outcome.bind_ok,
      r7 _ _ (hn (by simp [hg])), Outcome.bind_ok, r8 _ _ (hn (by simp [hg])), Outcome.bind_ok, r9 _ _ (hn (by simp [hg])), Outcome.bind_ok,
      r10 _ _ (hn (by simp [hg])), Outcome.bind_ok, r11 _ _ (hn (by simp [hg])), Outcome.bind_ok, r12 _ _ (hn (by simp [hg])), Outcome.bind_ok,
      r13 _ _ (hn (by simp [hg])), Outcome.bind_ok]

/-- C130, binary program: the state - solution and time series - is read back, the time series in the order it had. -/
theorem binary_state_file_partial [Zero δ] [One δ] {sh : Nat → Outcome Nat} (hs : Shift sh) (mem : Equiv.Perm (Fin 3)) (order : Members δ → List Str)
    (ho : ∀ g, (order g).Perm (g.map Prod.fst)) (s : BinarySolution δ) (hf : s.Fine) (series : List (Sample δ)) :
    ∃ g, writeBinaryState mem sh [] s series = .ok g ∧ readBinaryState mem sh order g = .ok (s, series) := by
  obtain ⟨ms, hw, hr⟩ := binary_file_partial hs mem order ho s hf
  obtain ⟨x, w, r⟩ := sample_lawful.list series.reverse
  have h1 := (inGroup_stores (f := writeBinary mem sh) (r := readBinary mem sh order) hw hr).1 [] "solution".toList (by simp)
  refine ⟨[("solution".toList, .group ms), ("time_series".toList, x)], ?_, ?_⟩
  · unfold writeBinaryState
    beta_reduce at h1
    rw [h1, Outcome.bind_ok, w _ _ (by fresh)]
    rfl
  · unfold readBinaryState
    rw [show requireGroup [("solution".toList, Node.group ms), ("time_series".toList, x)] "solution".toList = .ok ms from rfl, Outcome.bind_ok, hr,
      Outcome.bind_ok, r _ _ (read_mem (by fresh) (by simp)), Outcome.bind_ok, List.reverse_reverse]

/-! ### What is refused -/

/-- A value of another type is never taken for the one that is wanted: reading throws. -/
theorem other_type_throws {γ : Type} (E : Elem β δ) (F : Elem γ δ) (hE : E.Lawful) (ht : E.type ≠ F.type) (v : β) (name : Str) :
    ∃ g, E.write [] name v = .ok g ∧ F.read g name = .throws .invalidArgument := by
  obtain ⟨d, ⟨hd, _⟩, hw, _⟩ := dataset_ok (s := .scalar) hE.inside hE.cover (mem := E.address v) (by simp [Space.points, hE.size])
  refine ⟨_, hw [] name (by simp), ?_⟩
  have hne : d.type ≠ F.type := by rw [hd]; exact ht
  simp only [List.nil_append, Elem.read, openData, Group.read, if_true, Outcome.bind_ok, Dataset.read, hne, ne_eq, not_false_eq_true]
  rfl

/-- What is in the file is never replaced by something of another type or extent, nor a group by a dataset: writing throws. -/
theorem write_over_throws (g : Members δ) (name : Str) (t : HType) (s : Space) (mem : List (Scalar δ)) :
    (∀ d, g.read name = .ok (.data d) → d.type ≠ t ∨ d.space ≠ s → writeData g name t s mem = .throws .invalidArgument) ∧
    (∀ ms, g.read name = .ok (.group ms) → writeData g name t s mem = .throws .invalidArgument) := by
  refine ⟨fun d hd h => ?_, fun ms hg => ?_⟩
  · unfold writeData
    rw [hd]
    exact if_neg fun e => h.elim (fun h => h e.1) fun h => h e.2
  · unfold writeData
    rw [hg]

/-- A group is not taken for a value, and a value that is not there is not made up: reading throws. -/
theorem read_other_throws (E : Elem β δ) (g : Members δ) (name : Str) :
    (∀ ms, g.read name = .ok (.group ms) → E.read g name = .throws .invalidArgument ∧ ∀ rank, E.readArray rank g name = .throws .invalidArgument) ∧
    ((∀ x ∈ g, x.1 ≠ name) → E.read g name = .throws .invalidArgument ∧ ∀ rank, E.readArray rank g name = .throws .invalidArgument) := by
  have both : openData g name = .throws .invalidArgument → E.read g name = .throws .invalidArgument ∧ ∀ rank, E.readArray rank g name = .throws .invalidArgument := by
    intro h
    constructor
    · unfold Elem.read
      rw [h]
      rfl
    · intro rank
      unfold Elem.readArray
      rw [h]
      rfl
  refine ⟨fun ms h => both ?_, fun h => both ?_⟩
  · unfold openData
    rw [h]
    rfl
  · have : g.read name = .throws .invalidArgument := by
      clear both
      induction g with
      | nil => rfl
      | cons x g ih =>
        unfold Group.read
        rw [if_neg (h x (by simp))]
        exact ih fun y hy => h y (List.mem_cons_of_mem _ hy)
    unfold openData
    rw [this]
    rfl

/-- An array type of any type whose places are those of the object, each once, is again such a type; members and arrays can be nested. -/
theorem array_places {t : HType} (h : t.cells.Perm (List.range t.size)) (n : Nat) : (HType.array n t).cells.Perm (List.range (HType.array n t).size) := by
  simp only [HType.cells, HType.size]
  induction n with
  | zero => simp
  | succ n ih =>
    rw [List.range_succ, List.flatMap_append, Nat.succ_mul, List.range_add]
    exact ih.append (by simpa using h.map (n * t.size + ·))

/-- An array of another rank is refused. -/
theorem other_rank_throws (E : Elem β δ) (hE : E.Lawful) {rank rank' : Nat} (hr : rank ≠ rank') (a : Arr β) (ha : a.Full rank) (name : Str) :
    ∃ g, E.writeArray [] name a = .ok g ∧ E.readArray rank' g name = .throws .logicError := by
  obtain ⟨d, ⟨_, hs⟩, hw, _⟩ := dataset_ok (s := .simple a.shape) hE.inside hE.cover (mem := a.values.flatMap E.address)
    (by rw [length_flatMap_const _ _ hE.size, ha.2]; rfl)
  refine ⟨_, hw [] name (by simp), ?_⟩
  have hne : a.shape.length ≠ rank' := by rw [ha.1]; exact hr
  simp only [List.nil_append, Elem.readArray, openData, Group.read, if_true, Outcome.bind_ok, Elem.ofDataset, hs, hne, ne_eq, not_false_eq_true]

/-! ### Tuples in memory -/

theorem tuple_address [Zero δ] (a b : Equiv.Perm (Fin 3)) (v : Fin 3 → δ) :
    (tuple a).address v = (tuple b).address fun i => v (a (b.symm i)) := by
  simp [tuple]

theorem tuple_leaf [Zero δ] (a b : Equiv.Perm (Fin 3)) (sh : Nat → Outcome Nat) (g : Members δ) (name : Str) (v : Fin 3 → δ) :
    (tuple a).writeTree sh g name (.leaf ⟨[1, 1], [v]⟩ : Tree 2 _) = (tuple b).writeTree sh g name (.leaf ⟨[1, 1], [fun i => v (a (b.symm i))]⟩ : Tree 2 _) := by
  have h : ∀ (ms : Members δ) (n : Str), (tuple a).writeArray ms n ⟨[1, 1], [v]⟩ = (tuple b).writeArray ms n ⟨[1, 1], [fun i => v (a (b.symm i))]⟩ := by
    intro ms n
    simp only [Elem.writeArray, List.flatMap_cons, List.flatMap_nil, tuple_address a b v]
    rfl
  unfold Elem.writeTree
  congr 1
  funext ms
  show writeArrays (tuple a) sh [(_, _)] ms = writeArrays (tuple b) sh [(_, _)] ms
  simp only [writeArrays, h]

/-- A solution with one block of one zone. -/
def oneZone [Zero δ] [One δ] (v : Fin 3 → δ) : BinarySolution δ :=
  ⟨0, (0, 1), .leaf ⟨[1, 1], [v]⟩, .leaf ⟨[1, 1], [0]⟩, 0, 0, 0, 0, 0, 0, fullElements.new, fullElements.new, fullElements.new⟩

theorem oneZone_fine [Zero δ] [One δ] (v : Fin 3 → δ) : (oneZone v).Fine := by
  have h : ∀ w : Fin 3 → δ, DepthLe (.leaf ⟨[1, 1], [w]⟩ : Tree 2 (Arr (Fin 3 → δ))) 30 ∧
      ∀ i a, LeafAt (.leaf ⟨[1, 1], [w]⟩ : Tree 2 (Arr (Fin 3 → δ))) i a → a.Full 2 := by
    intro w
    refine ⟨fun i a h => le_trans ((tree_depth _).2 i a h) (Nat.zero_le _), fun i a h => ?_⟩
    cases h
    exact ⟨rfl, rfl⟩
  exact ⟨h v, h 0⟩

/-- C130, the violation: the file has the bytes of `std::tuple`s, whose order in memory is the compiler's choice.  If the reader's compiler chose otherwise than the writer's,
then there is a solution that is read without complaint and is another one. -/
theorem tuple_order_violated {sh : Nat → Outcome Nat} (hs : Shift sh) (order : Members ℤ → List Str) (ho : ∀ g, (order g).Perm (g.map Prod.fst))
    (a b : Equiv.Perm (Fin 3)) (hab : a ≠ b) :
    ∃ (s s' : BinarySolution ℤ) (g : Members ℤ), s.Fine ∧ writeBinary a sh [] s = .ok g ∧ readBinary b sh order g = .ok s' ∧ s' ≠ s := by
  let v : Fin 3 → ℤ := fun i => (i : ℕ)
  obtain ⟨g, hw, hr⟩ := binary_file_partial hs b order ho (oneZone fun i => v (a (b.symm i))) (oneZone_fine _)
  refine ⟨oneZone v, _, g, oneZone_fine v, ?_, hr, ?_⟩
  · rw [← hw]
    have h0 : (fun i : Fin 3 => (0 : Fin 3 → ℤ) (a (b.symm i))) = 0 := rfl
    simp only [writeBinary, oneZone, tuple_leaf a b, h0]
  · intro h
    apply hab
    have h1 := congrArg BinarySolution.conservedU h
    simp only [oneZone, Tree.leaf.injEq, Arr.mk.injEq, List.cons.injEq, and_true, true_and] at h1
    ext i
    have := congrFun h1 (b i)
    simp only [v, Equiv.symm_apply_apply, Nat.cast_inj] at this
    exact this

example : ∃ (s s' : BinarySolution ℤ) (g : Members ℤ), s.Fine ∧ writeBinary (Equiv.refl _) shl1 [] s = .ok g ∧
    readBinary (Equiv.swap 0 2) shl1 (fun g => g.map Prod.fst) g = .ok s' ∧ s' ≠ s :=
  tuple_order_violated shl1_shift _ (fun _ => .refl _) (Equiv.refl _) (Equiv.swap 0 2) (by decide)

/-! ### A refined disk -/

/-- Four blocks of two by one zones, with different values. -/
def fourBlocks : BinarySolution ℤ :=
  ⟨12, (5, 2), .node fun k => .leaf ⟨[2, 1], [![k, 1, 2], ![k, 3, 4]]⟩, .node fun k => .leaf ⟨[2, 1], [![k, 5, 6], ![k, 7, 8]]⟩, ![1, 2], ![3, 4], ![5, 6], ![7, 8],
    9, 10, ⟨1, 2, 3, 4, 5, 6, ⟨7, 8, 9, 10⟩⟩, ⟨2, 2, 3, 4, 5, 6, ⟨7, 8, 9, 10⟩⟩, ⟨3, 2, 3, 4, 5, 6, ⟨7, 8, 9, 10⟩⟩⟩

theorem fourBlocks_fine : fourBlocks.Fine := by
  have h : ∀ f : Fin 4 → Fin 2 → Fin 3 → ℤ, DepthLe (.node fun k => .leaf ⟨[2, 1], [f k 0, f k 1]⟩ : Tree 2 (Arr (Fin 3 → ℤ))) 30 ∧
      ∀ i a, LeafAt (.node fun k => .leaf ⟨[2, 1], [f k 0, f k 1]⟩ : Tree 2 (Arr (Fin 3 → ℤ))) i a → a.Full 2 := by
    intro f
    refine ⟨fun i a h => ?_, fun i a h => ?_⟩
    · cases h with
      | inChild _ _ _ _ h => cases h; exact (by decide : 1 ≤ 30)
    · cases h with
      | inChild _ _ _ _ h => cases h; exact ⟨rfl, rfl⟩
  exact ⟨h fun k j => if j = 0 then ![k, 1, 2] else ![k, 3, 4], h fun k j => if j = 0 then ![k, 5, 6] else ![k, 7, 8]⟩

example : ∃ g, writeBinary (Equiv.swap 0 2) shl1 [] fourBlocks = .ok g ∧ readBinary (Equiv.swap 0 2) shl1 (fun g => (g.map Prod.fst).reverse) g = .ok fourBlocks :=
  binary_file_partial shl1_shift _ _ (fun _ => List.reverse_perm _) _ fourBlocks_fine

/-- All trees of the diagnostics have depth at most 30 and arrays of rank two. -/
def BinaryFields.Fine (d : BinaryFields δ) : Prop :=
  (DepthLe d.vertices 30 ∧ ∀ i a, LeafAt d.vertices i a → a.Full 2) ∧ (DepthLe d.sigma 30 ∧ ∀ i a, LeafAt d.sigma i a → a.Full 2) ∧
  (DepthLe d.radialVelocity 30 ∧ ∀ i a, LeafAt d.radialVelocity i a → a.Full 2) ∧ DepthLe d.phiVelocity 30 ∧ ∀ i a, LeafAt d.phiVelocity i a → a.Full 2

/-- C130, binary program: the diagnostics - four trees, the time and the positions - are read back, whatever the configuration beside them. -/
theorem binary_diagnostics_file [Zero δ] {sh : Nat → Outcome Nat} (hs : Shift sh) (order : Members δ → List Str) (ho : ∀ g, (order g).Perm (g.map Prod.fst))
    (config : Members δ) (d : BinaryFields δ) (hf : d.Fine) :
    ∃ g, writeFields sh config [] d = .ok g ∧ readFields sh order g = .ok d ∧ openGroup g "run_config".toList = .ok config := by
  obtain ⟨⟨a1, a2⟩, ⟨b1, b2⟩, ⟨c1, c2⟩, d1, d2⟩ := hf
  obtain ⟨x1, w1, r1⟩ := double_lawful.value d.time
  obtain ⟨x2, w2, r2⟩ := (seq_lawful 2).tree hs (by norm_num) order ho a1 a2
  obtain ⟨x3, w3, r3⟩ := double_lawful.tree hs (by norm_num) order ho b1 b2
  obtain ⟨x4, w4, r4⟩ := double_lawful.tree hs (by norm_num) order ho c1 c2
  obtain ⟨x5, w5, r5⟩ := double_lawful.tree hs (by norm_num) order ho d1 d2
  obtain ⟨x6, w6, r6⟩ := (seq_lawful 2).value d.positionOfMass1
  obtain ⟨x7, w7, r7⟩ := (seq_lawful 2).value d.positionOfMass2
  obtain ⟨g, hg⟩ : ∃ g : Members δ, g = [("run_config".toList, .group config), ("time".toList, x1), ("vertices".toList, x2), ("sigma".toList, x3),
    ("radial_velocity".toList, x4), ("phi_velocity".toList, x5), ("position_of_mass1".toList, x6), ("position_of_mass2".toList, x7)] := ⟨_, rfl⟩
  have h0 : inGroup ([] : Members δ) "run_config".toList (fun ms => .ok (ms ++ config)) = .ok [("run_config".toList, .group config)] := rfl
  have hn : ∀ {n : Str} {x : Node δ}, (n, x) ∈ g → TreeSerialize.Group.read g n = .ok x := fun h => read_mem (by rw [hg]; fresh) h
  refine ⟨g, ?_, ?_, ?_⟩
  · unfold writeFields
    rw [h0, Outcome.bind_ok, w1 _ _ (by fresh), Outcome.bind_ok, w2 _ _ (by fresh), Outcome.bind_ok, w3 _ _ (by fresh), Outcome.bind_ok, w4 _ _ (by fresh),
      Outcome.bind_ok, w5 _ _ (by fresh), Outcome.bind_ok, w6 _ _ (by fresh), Outcome.bind_ok, w7 _ _ (by fresh), hg]
    rfl
  · unfold readFields
    rw [r1 _ _ (hn (by simp [hg])), Outcome.bind_ok, r2 _ _ (hn (by simp [hg])), Outcome.bind_ok, r3 _ _ (hn (by simp [hg])), Outcome.bind_ok,
      r4 _ _ (hn (by simp [hg])), Outcome.bind_ok, r5 _ _ (hn (by simp [hg])), Outcome.bind_ok, r6 _ _ (hn (by simp [hg])), Outcome.bind_ok,
      r7 _ _ (hn (by simp [hg])), Outcome.bind_ok]
  · unfold openGroup
    rw [hn (x := .group config) (by simp [hg])]
    rfl

/-- Diagnostics of four blocks of one zone. -/
example : ∃ g, writeFields shl1 [("N".toList, .group [])] [] (⟨3, .node fun k => .leaf ⟨[1, 1], [![k, 1]]⟩, .leaf ⟨[1, 2], [4, 5]⟩, .leaf ⟨[1, 1], [6]⟩, .leaf ⟨[1, 1], [7]⟩, ![8, 9], ![10, 11]⟩ : BinaryFields ℤ) = .ok g ∧
    ∃ d, readFields shl1 (fun g => (g.map Prod.fst).reverse) g = .ok d ∧ d.sigma = .leaf ⟨[1, 2], [4, 5]⟩ := by
  have one : ∀ a : Arr ℤ, a.Full 2 → DepthLe (.leaf a : Tree 2 (Arr ℤ)) 30 ∧ ∀ i b, LeafAt (.leaf a : Tree 2 (Arr ℤ)) i b → b.Full 2 := by
    intro a ha
    refine ⟨fun i b h => ?_, fun i b h => ?_⟩
    · cases h; exact Nat.zero_le _
    · cases h; exact ha
  obtain ⟨g, h1, h2, -⟩ := binary_diagnostics_file shl1_shift (fun g => (g.map Prod.fst).reverse) (fun _ => List.reverse_perm _) [("N".toList, .group [])]
    (⟨3, .node fun k => .leaf ⟨[1, 1], [![k, 1]]⟩, .leaf ⟨[1, 2], [4, 5]⟩, .leaf ⟨[1, 1], [6]⟩, .leaf ⟨[1, 1], [7]⟩, ![8, 9], ![10, 11]⟩ : BinaryFields ℤ)
    ⟨⟨fun i a h => by
      cases h with
      | inChild _ _ _ _ h => cases h; exact (by decide : 1 ≤ 30), fun i a h => by
      cases h with
      | inChild _ _ _ _ h => cases h; exact ⟨rfl, rfl⟩⟩, one _ ⟨rfl, rfl⟩, one _ ⟨rfl, rfl⟩, one _ ⟨rfl, rfl⟩⟩
  exact ⟨g, h1, _, h2, rfl⟩

/-- A sample of the time series. -/
def oneSample (t : ℤ) : Sample ℤ :=
  ⟨t, 1, 2, 3, 4, ![5, 6], ![7, 8], ![9, 10], ![11, 12], ⟨1, 2, 3, 4, 5, 6, ⟨7, 8, 9, 10⟩⟩, ⟨2, 2, 3, 4, 5, 6, ⟨7, 8, 9, 10⟩⟩, ⟨3, 2, 3, 4, 5, 6, ⟨7, 8, 9, 10⟩⟩,
    ![13, 14], ![15, 16]⟩

example : ∃ g, writeBinaryState (Equiv.refl _) shl1 [] fourBlocks [oneSample 2, oneSample 1] = .ok g ∧
    readBinaryState (Equiv.refl _) shl1 (fun g => g.map Prod.fst) g = .ok (fourBlocks, [oneSample 2, oneSample 1]) :=
  binary_state_file_partial shl1_shift _ _ (fun _ => .refl _) _ fourBlocks_fine _

example : ∃ g, (rational (δ := ℤ)).write [] "iteration".toList (7, 2) = .ok g ∧ (int (δ := ℤ)).read g "iteration".toList = .throws .invalidArgument :=
  other_type_throws _ _ rational_lawful (by intro h; cases h) _ _

example : writeData [("x".toList, .data ⟨.int, .scalar, [.int 3]⟩)] "x".toList .double .scalar [.dbl (2 : ℤ)] = .throws .invalidArgument :=
  (write_over_throws _ _ _ _ _).1 ⟨.int, .scalar, [.int 3]⟩ (by simp [Group.read]) (.inl (by intro h; cases h))

example : (double (δ := ℤ)).read [("x".toList, .group [])] "x".toList = .throws .invalidArgument ∧ (double (δ := ℤ)).read [("x".toList, .group [])] "y".toList = .throws .invalidArgument :=
  ⟨((read_other_throws _ _ _).1 [] (by simp [Group.read])).1, ((read_other_throws _ _ _).2 (by simp)).1⟩

example : (HType.array 3 sampleType).cells.Perm (List.range (HType.array 3 sampleType).size) :=
  array_places (by decide +kernel) 3

example : ∃ g, (double (δ := ℤ)).writeArray [] "x".toList ⟨[2, 2], [1, 2, 3, 4]⟩ = .ok g ∧ (double (δ := ℤ)).readArray 1 g "x".toList = .throws .logicError :=
  other_rank_throws _ double_lawful (rank := 2) (by decide) _ ⟨rfl, rfl⟩ _

end Verif.File
