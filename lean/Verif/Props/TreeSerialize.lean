import Verif.Model.TreeSerialize
import Verif.Lemmas.Text
import Verif.Props.Tree

/-!
# C15, C16: trees in files
-/

namespace Verif.TreeSerialize
open Verif Verif.Text Verif.Tree Verif.Seq

variable {R : Nat} {α : Type} {sh : Nat → Outcome Nat}

theorem toSizeT_nat {n : Nat} (h : n < 2 ^ 64) : toSizeT (n : Int) = n := by
  unfold toSizeT; omega

/-- The part of the name after the colon. -/
def coordText (w : Nat) {n : Nat} (x : Seq (n + 1) Nat) : Str :=
  pad w (showNat (x 0)) ++ (List.ofFn fun i : Fin n => '-' :: pad w (showNat (x i.succ))).flatten

theorem format_eq (hs : Shift sh) (i : Index (R + 1)) (hl : i.level ≤ 30) :
    formatTreeIndex sh i =
      .ok (showNat i.level ++ ':' :: coordText (fieldWidth (2 ^ i.level)) i.coords) := by
  unfold formatTreeIndex coordText
  rw [hs _ hl, Outcome.bind_ok, List.ofFn_succ]
  simp

theorem count_coordText (w : Nat) {n : Nat} (x : Seq (n + 1) Nat) : (coordText w x).count '-' = n := by
  have hz : ∀ m, (pad w (showNat m)).count '-' = 0 := fun m =>
    List.count_eq_zero.2 (not_mem_digits (pad_digits w m) (by decide))
  unfold coordText
  rw [List.count_append, hz, Nat.zero_add]
  induction n with
  | zero => simp
  | succ n ih =>
    rw [List.ofFn_succ, List.flatten_cons, List.count_append, List.count_cons, hz]
    have := ih (fun i => x i.succ)
    rw [this]; simp; omega

theorem readCoords_coordText (w : Nat) {n : Nat} (x : Seq (n + 1) Nat) (h : ∀ a, x a < 2 ^ 31) :
    readCoords (n + 1) (coordText w x) = .ok x := by
  have hv : ∀ m, m < 2 ^ 31 → stoi (pad w (showNat m)) = .ok (m : Int) := by
    intro m hm
    rw [stoi_digits (pad_digits w m) (pad_ne_nil w m) (by rw [digitsVal_pad]; exact hm), digitsVal_pad]
  have hd : ∀ m, '-' ∉ pad w (showNat m) := fun m => not_mem_digits (pad_digits w m) (by decide)
  induction n with
  | zero =>
    have e : coordText w x = pad w (showNat (x 0)) := by simp [coordText]
    rw [e]
    unfold readCoords
    rw [before_not_mem (hd _), hv _ (h 0)]
    simp only [Outcome.bind_ok, readCoords]
    congr 1
    funext a
    obtain rfl : a = 0 := by omega
    simp only [Fin.cons_zero]
    exact toSizeT_nat (by have := h 0; omega)
  | succ n ih =>
    have e : coordText w x = pad w (showNat (x 0)) ++ '-' :: coordText w (fun i => x i.succ) := by
      unfold coordText
      rw [List.ofFn_succ, List.flatten_cons]; simp
    rw [e]
    unfold readCoords
    rw [before_append (hd _), erase_append (hd _), hv _ (h 0), ih (fun i => x i.succ) (fun a => h _)]
    simp only [Outcome.bind_ok]
    congr 1
    rw [toSizeT_nat (by have := h 0; omega)]
    exact Fin.cons_self_tail x

/-- C16: the name of a valid index parses back to the index. -/
theorem index_name_round_trip (hs : Shift sh) (i : Index (R + 1)) (hv : i.Valid) (hl : i.level ≤ 30)
    (hR : R < 2 ^ 64) :
    ∃ n, formatTreeIndex sh i = .ok n ∧ readTreeIndex (R + 1) n = .ok i := by
  refine ⟨_, format_eq hs i hl, ?_⟩
  have hd : ∀ c, isDigit c = false → c ∉ showNat i.level := fun c hc =>
    not_mem_digits (showNat_digits _) hc
  unfold readTreeIndex
  have hc : (showNat i.level ++ ':' :: coordText (fieldWidth (2 ^ i.level)) i.coords).count '-' = R := by
    rw [List.count_append, List.count_eq_zero.2 (hd '-' (by decide)), List.count_cons, count_coordText]
    simp
  rw [hc, if_neg (by rw [not_not]; omega), before_append (hd ':' (by decide)),
    erase_append (hd ':' (by decide)),
    stoi_digits (showNat_digits _) (showNat_ne_nil _) (by rw [digitsVal_showNat]; omega),
    readCoords_coordText _ _ (fun a => lt_of_lt_of_le (hv a)
      (Nat.pow_le_pow_right (by norm_num) (by omega))), digitsVal_showNat]
  simp only [Outcome.bind_ok]
  rw [toSizeT_nat (by omega)]

example : ∃ n, formatTreeIndex shl1 (⟨4, ![3, 12]⟩ : Index 2) = .ok n ∧ readTreeIndex 2 n = .ok ⟨4, ![3, 12]⟩ :=
  index_name_round_trip (R := 1) shl1_shift _ (by unfold Index.Valid; decide) (by decide) (by decide)

/-- C16: distinct valid indexes have distinct names. -/
theorem index_name_injective (hs : Shift sh) (i j : Index (R + 1)) (hi : i.Valid) (hj : j.Valid)
    (hli : i.level ≤ 30) (hlj : j.level ≤ 30) (hR : R < 2 ^ 64)
    (h : formatTreeIndex sh i = formatTreeIndex sh j) : i = j := by
  obtain ⟨n, h1, h2⟩ := index_name_round_trip hs i hi hli hR
  obtain ⟨m, h3, h4⟩ := index_name_round_trip hs j hj hlj hR
  rw [h1, h3] at h
  injection h with h
  subst h
  rw [h2] at h4
  injection h4

example (j : Index 2) (hj : j.Valid) (hl : j.level ≤ 30)
    (h : formatTreeIndex shl1 ⟨4, ![3, 12]⟩ = formatTreeIndex shl1 j) : ⟨4, ![3, 12]⟩ = j :=
  index_name_injective shl1_shift _ j (by unfold Index.Valid; decide) hj (by decide) hl (by decide) h

/-- C16: a name with another number of separators is rejected; in particular the name of an index of
one rank is rejected when read with another rank. -/
theorem index_name_wrong_rank (hs : Shift sh) (S : Nat) (hS : S + 1 < 2 ^ 64) :
    (∀ s : Str, s.count '-' ≠ S → readTreeIndex (S + 1) s = .throws .invalidArgument) ∧
    (∀ (i : Index (R + 1)) n, i.level ≤ 30 → R ≠ S → formatTreeIndex sh i = .ok n →
      readTreeIndex (S + 1) n = .throws .invalidArgument) := by
  have h1 : ∀ s : Str, s.count '-' ≠ S → readTreeIndex (S + 1) s = .throws .invalidArgument := by
    intro s hc
    unfold readTreeIndex
    rw [if_pos (by omega)]
  refine ⟨h1, ?_⟩
  intro i n hl hne hn
  apply h1
  rw [format_eq hs i hl] at hn
  injection hn with hn
  rw [← hn, List.count_append, List.count_eq_zero.2 (not_mem_digits (showNat_digits _) (by decide)),
    List.count_cons, count_coordText]
  simpa using hne

/-- Malformed names. -/
example : readTreeIndex 2 "x:0-0".toList = .throws .invalidArgument ∧
    readTreeIndex 2 "3:-1".toList = .throws .invalidArgument ∧
    readTreeIndex 2 "99999999999:0-0".toList = .throws .outOfRange := by decide

/-! ### writing and reading a tree -/

theorem write_new {g : Group α} {n : Str} {v : α} (h : n ∉ g.map Prod.fst) : g.write n v = g ++ [(n, v)] := by
  induction g with
  | nil => rfl
  | cons p g ih =>
    obtain ⟨m, w⟩ := p
    simp only [List.map_cons, List.mem_cons, not_or] at h
    simp only [Group.write, List.cons_append]
    rw [if_neg (fun e => h.1 e.symm), ih h.2]

theorem read_mem {g : Group α} (hn : (g.map Prod.fst).Nodup) {n : Str} {v : α} (h : (n, v) ∈ g) :
    g.read n = .ok v := by
  induction g with
  | nil => cases h
  | cons p g ih =>
    obtain ⟨m, w⟩ := p
    simp only [List.map_cons, List.nodup_cons] at hn
    simp only [Group.read]
    rcases List.mem_cons.1 h with h | h
    · injection h with h1 h2; subst h1 h2; rw [if_pos rfl]
    · rw [if_neg, ih hn.2 h]
      rintro rfl
      exact hn.1 (List.mem_map.2 ⟨_, h, rfl⟩)

theorem writeLeaves_eq (hs : Shift sh) (hR : R < 2 ^ 64) (ps : List (Index (R + 1) × α))
    (hv : ∀ p ∈ ps, p.1.Valid ∧ p.1.level ≤ 30) (hnd : (ps.map Prod.fst).Nodup) (g : Group α)
    (hg : ∀ p ∈ ps, ∀ n, formatTreeIndex sh p.1 = .ok n → n ∉ g.map Prod.fst) :
    ∃ ns : List Str, List.Forall₂ (fun n p => formatTreeIndex sh p.1 = .ok n) ns ps ∧
      writeLeaves sh ps g = .ok (g ++ List.zipWith (fun n p => (n, p.2)) ns ps) := by
  induction ps generalizing g with
  | nil => exact ⟨[], .nil, by simp [writeLeaves]⟩
  | cons p ps ih =>
    obtain ⟨i, v⟩ := p
    obtain ⟨hvi, hli⟩ := hv (i, v) (by simp)
    obtain ⟨n, hn, _⟩ := index_name_round_trip hs i hvi hli hR
    simp only [List.map_cons, List.nodup_cons] at hnd
    have hnew := hg (i, v) (by simp) n hn
    obtain ⟨ns, h1, h2⟩ := ih (fun p hp => hv p (by simp [hp])) hnd.2 (g.write n v) (by
      intro p hp m hm
      rw [write_new hnew]
      simp only [List.map_append, List.mem_append, List.map_cons, List.map_nil, List.mem_singleton, not_or]
      refine ⟨hg p (by simp [hp]) m hm, ?_⟩
      rintro rfl
      have := index_name_injective hs p.1 i (hv p (by simp [hp])).1 hvi (hv p (by simp [hp])).2 hli hR
        (by rw [hm, hn])
      exact hnd.1 (by rw [← this]; exact List.mem_map.2 ⟨p, hp, rfl⟩))
    refine ⟨n :: ns, .cons hn h1, ?_⟩
    unfold writeLeaves
    rw [hn, Outcome.bind_ok, h2, write_new hnew]
    simp

theorem forall₂_left {β γ : Type} {P : β → γ → Prop} {l : List β} {m : List γ} (h : List.Forall₂ P l m)
    {x : β} (hx : x ∈ l) : ∃ y ∈ m, P x y := by
  induction h with
  | nil => cases hx
  | cons h1 _ ih =>
    rcases List.mem_cons.1 hx with rfl | hx
    · exact ⟨_, by simp, h1⟩
    · obtain ⟨y, hy, hp⟩ := ih hx; exact ⟨y, by simp [hy], hp⟩

theorem forall₂_right {β γ : Type} {P : β → γ → Prop} {l : List β} {m : List γ} (h : List.Forall₂ P l m)
    {y : γ} (hy : y ∈ m) : ∃ x ∈ l, P x y := by
  induction h with
  | nil => cases hy
  | cons h1 _ ih =>
    rcases List.mem_cons.1 hy with rfl | hy
    · exact ⟨_, by simp, h1⟩
    · obtain ⟨x, hx, hp⟩ := ih hy; exact ⟨x, by simp [hx], hp⟩

theorem names_facts (hs : Shift sh) (hR : R < 2 ^ 64) {ns : List Str} {ps : List (Index (R + 1) × α)}
    (h : List.Forall₂ (fun n p => formatTreeIndex sh p.1 = .ok n) ns ps)
    (hv : ∀ p ∈ ps, p.1.Valid ∧ p.1.level ≤ 30) (hnd : (ps.map Prod.fst).Nodup) :
    (List.zipWith (fun n (q : Index (R + 1) × α) => (n, q.2)) ns ps).map Prod.fst = ns ∧ ns.Nodup ∧
    ∀ n q, formatTreeIndex sh q.1 = .ok n → q ∈ ps →
      (n, q.2) ∈ List.zipWith (fun n (q : Index (R + 1) × α) => (n, q.2)) ns ps := by
  induction h with
  | nil => simp
  | @cons n q ns ps h1 hrest ih =>
    simp only [List.map_cons, List.nodup_cons] at hnd
    obtain ⟨i1, i2, i3⟩ := ih (fun p hp => hv p (by simp [hp])) hnd.2
    refine ⟨by simp [i1], List.nodup_cons.2 ⟨?_, i2⟩, ?_⟩
    · intro hn
      obtain ⟨p, hp, hf⟩ := forall₂_left hrest hn
      have := index_name_injective hs p.1 q.1 (hv p (by simp [hp])).1 (hv q (by simp)).1
        (hv p (by simp [hp])).2 (hv q (by simp)).2 hR (by rw [hf, h1])
      exact hnd.1 (by rw [← this]; exact List.mem_map.2 ⟨p, hp, rfl⟩)
    · intro m p hm hp
      simp only [List.zipWith_cons_cons, List.mem_cons]
      rcases List.mem_cons.1 hp with rfl | hp
      · rw [h1] at hm; injection hm with hm; subst hm; exact Or.inl rfl
      · exact Or.inr (i3 m p hm hp)

/-- Reading names of leaves of `t`, none twice, into a tree whose subdivisions are subdivisions of `t`. -/
theorem readTree_aux [Inhabited α] (hs : Shift sh) (t : Tree (R + 1) α) (hD : DepthLe t 30) (hR : R < 2 ^ 64)
    (g : Group α) (ns : List Str) (done : List Str)
    (hns : ∀ n ∈ ns, ∃ i a, LeafAt t i a ∧ formatTreeIndex sh i = .ok n ∧ g.read n = .ok a)
    (r : Tree (R + 1) α)
    (hint : ∀ j, InteriorAt r j → InteriorAt t j)
    (hdone : ∀ n ∈ done, ∃ i a, LeafAt t i a ∧ formatTreeIndex sh i = .ok n ∧ LeafAt r i a)
    (hnd : (done ++ ns).Nodup) :
    ∃ r', readTree sh g ns r = .ok r' ∧
      ∀ n ∈ done ++ ns, ∃ i a, LeafAt t i a ∧ formatTreeIndex sh i = .ok n ∧ LeafAt r' i a := by
  induction ns generalizing r done with
  | nil => exact ⟨r, rfl, by simpa using hdone⟩
  | cons n ns ih =>
    obtain ⟨i, a, hi, hfmt, hread⟩ := hns n (by simp)
    have hli := hD i a hi
    obtain ⟨n', h1, h2⟩ := index_name_round_trip hs i hi.valid hli hR
    rw [hfmt] at h1; injection h1 with h1; subst h1
    have hni : ¬ InteriorAt r i := by
      intro h
      obtain ⟨c, hc⟩ := hint i h
      cases nodeAt_unique hi hc
    obtain ⟨r1, hr1, hleaf, hkeep, _, hint1⟩ := (tree_insert hs a r i (by omega)).1 hi.valid hni
    have hint' : ∀ j, InteriorAt r1 j → InteriorAt t j := by
      intro j hj
      rcases (hint1 j).1 hj with h | ⟨h, hne⟩
      · exact hint j h
      · exact interior_of_leaf_inside hi h (fun e => hne e.symm)
    obtain ⟨r', hr', hall⟩ := ih (done ++ [n]) (fun m hm => hns m (by simp [hm])) r1 hint'
      (by
        intro m hm
        rw [List.mem_append, List.mem_singleton] at hm
        rcases hm with hm | rfl
        · obtain ⟨j, b, hj, hjf, hjr⟩ := hdone m hm
          refine ⟨j, b, hj, hjf, hkeep j b hjr ?_⟩
          intro hin
          have e := tree_leaf_disjoint t i j a b hi hj hin
          subst e
          rw [hfmt] at hjf; injection hjf with hjf; subst hjf
          rw [List.nodup_append] at hnd
          exact hnd.2.2 _ hm _ (by simp) rfl
        · exact ⟨i, a, hi, hfmt, hleaf⟩)
      (by simpa using hnd)
    refine ⟨r', ?_, by simpa using hall⟩
    unfold readTree
    rw [hread, Outcome.bind_ok, h2, Outcome.bind_ok, hr1, Outcome.bind_ok, hr']

/-- C15: a tree of depth at most 30 written into an empty group and read back - in whatever order the
group lists its members, into a tree with a single leaf - is the same tree. -/
theorem tree_file_round_trip [Inhabited α] (hs : Shift sh) (hR : R < 2 ^ 64) (t : Tree (R + 1) α)
    (hD : DepthLe t 30) :
    ∃ g : Group α, writeTree sh t [] = .ok g ∧
      ∀ (order : List Str) (a₀ : α), order.Perm (g.map Prod.fst) →
        readTree sh g order (.leaf a₀ : Tree (R + 1) α) = .ok t := by
  obtain ⟨p, hp, hpl⟩ := tree_pair_indexes t 30 hD (by norm_num)
  have hpath := forall₂_paths p
  have hDp : DepthLe p 30 := by
    intro i q h
    exact hD i q.2 ((hpl i q).1 h).2
  -- the written pairs
  have hmem : ∀ q ∈ p.sink, LeafAt t q.1 q.2 := by
    intro q hq
    rw [sink_eq_leaves] at hq
    obtain ⟨i, _, hi⟩ := forall₂_right hpath hq
    obtain ⟨h1, h2⟩ := (hpl i q).1 hi
    rw [h1]; exact h2
  have hfst : p.sink.map Prod.fst = paths p := by
    rw [sink_eq_leaves]
    have : List.Forall₂ (fun i q => q.1 = i) (paths p) (leaves p) :=
      List.Forall₂.imp (fun i q h => ((hpl i q).1 h).1) hpath
    generalize paths p = l at this
    generalize leaves p = m at this
    induction this with
    | nil => rfl
    | cons h _ ih => simp [h, ih]
  have hnd : (p.sink.map Prod.fst).Nodup := by rw [hfst]; exact nodup_paths p
  obtain ⟨ns, hns, hw⟩ := writeLeaves_eq hs hR p.sink (fun q hq => ⟨(hmem q hq).valid, hD _ _ (hmem q hq)⟩) hnd []
    (by simp)
  rw [List.nil_append] at hw
  refine ⟨_, by unfold writeTree; rw [hp, Outcome.bind_ok, hw], ?_⟩
  obtain ⟨hnames, hndn, hin⟩ := names_facts hs hR hns (fun q hq => ⟨(hmem q hq).valid, hD _ _ (hmem q hq)⟩) hnd
  intro order a₀ hperm
  rw [hnames] at hperm
  obtain ⟨r, hr, hall⟩ := readTree_aux hs t hD hR
    (List.zipWith (fun n (q : Index (R + 1) × α) => (n, q.2)) ns p.sink) order []
    (by
      intro n hn
      obtain ⟨q, hq, hf⟩ := forall₂_left hns (hperm.mem_iff.1 hn)
      refine ⟨q.1, q.2, hmem q hq, hf, ?_⟩
      exact read_mem (by rw [hnames]; exact hndn) (hin n q hf hq))
    (.leaf a₀) (by rintro j ⟨c, hc⟩; cases hc) (by simp)
    (by simpa using hperm.nodup_iff.2 hndn)
  rw [hr]
  congr 1
  symm
  apply tree_eq_of_leaf_subset
  intro i a hi
  have hia : (i, a) ∈ p.sink := by
    have h1 : LeafAt p i (i, a) := (hpl i (i, a)).2 ⟨rfl, hi⟩
    rw [sink_eq_leaves]
    obtain ⟨q, hq, hq'⟩ := forall₂_left hpath (mem_paths.2 ⟨_, h1⟩)
    cases nodeAt_unique h1 hq'
    exact hq
  obtain ⟨n, hn, hf⟩ := forall₂_right hns hia
  obtain ⟨j, b, hj, hjf, hjr⟩ := hall n (by simpa using hperm.mem_iff.2 hn)
  have e : j = i := index_name_injective hs j i hj.valid hi.valid (hD _ _ hj) (hD _ _ hi) hR (by rw [hjf, hf])
  subst e
  cases nodeAt_unique hi hj
  exact hjr

example : formatTreeIndex shl1 (⟨4, ![3, 12]⟩ : Index 2) = .ok "4:03-12".toList := by decide +kernel
example : readTreeIndex 2 "4:03-12".toList = .ok ⟨4, ![3, 12]⟩ := by decide
example : readTreeIndex 3 "4:03-12".toList = .throws .invalidArgument := by decide
example : (⟨4, ![3, 12]⟩ : Index 2).Valid := by unfold Index.Valid; decide
example : writeTree shl1 exTree [] = .ok [("1:0-0".toList, 10), ("2:2-0".toList, 20), ("2:3-0".toList, 21),
    ("2:2-1".toList, 22), ("2:3-1".toList, 23), ("1:0-1".toList, 30), ("1:1-1".toList, 40)] := by
  decide +kernel
example : DepthLe exTree 30 := fun i a h => le_trans ((tree_depth exTree).2 i a h) (by decide)

end Verif.TreeSerialize
