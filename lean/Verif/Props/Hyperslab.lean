import Verif.Spec.Hyperslab
import Verif.Props.NdArray
import Verif.Props.Parallel
import Verif.Props.Schedule

/-!
# Writing and reading parts of datasets

C104: a region of a dataset.  C105: the time series of the sedov program.
-/

namespace Verif.H5
open Verif Verif.Nd Verif.Par

variable {R S : Nat} {α β : Type}

/-! ### Points -/

private theorem mem_product {R : Nat} (l : Fin R → List Nat) (i : Ix R) : i ∈ product l ↔ ∀ a, i a ∈ l a := by
  induction R with
  | zero => simp only [product, List.mem_singleton]; exact ⟨fun _ a => a.elim0, fun _ => funext fun a => a.elim0⟩
  | succ R ih =>
    simp only [product, List.mem_flatMap, List.mem_map]
    constructor
    · rintro ⟨x, hx, t, ht, rfl⟩ a
      refine Fin.cases ?_ (fun b => ?_) a
      · simpa using hx
      · simpa [Fin.tail] using (ih (Fin.tail l) t).1 ht b
    · intro h
      exact ⟨i 0, h 0, Fin.tail i, (ih _ _).2 fun b => h b.succ, Fin.cons_self_tail i⟩

private theorem length_product {R : Nat} (l : Fin R → List Nat) : (product l).length = ∏ a, (l a).length := by
  induction R with
  | zero => simp [product]
  | succ R ih =>
    rw [Fin.prod_univ_succ, product, List.length_flatMap]
    simp only [List.length_map, ih]
    simp [Fin.tail]

private theorem product_map {R : Nat} (l : Fin R → List Nat) (c : Fin R → Nat → Nat) :
    product (fun a => (l a).map (c a)) = (product l).map fun i a => c a (i a) := by
  induction R with
  | zero => simp only [product, List.map_cons, List.map_nil]; congr 1; funext a; exact a.elim0
  | succ R ih =>
    have e : Fin.tail (fun a => (l a).map (c a)) = fun a => (Fin.tail l a).map (Fin.tail c a) := rfl
    simp only [product, e, ih (Fin.tail l) (Fin.tail c), List.flatMap_map, List.map_flatMap, List.map_map]
    refine List.flatMap_congr fun x _ => List.map_congr_left fun i _ => ?_
    funext a
    refine Fin.cases ?_ (fun b => ?_) a
    · simp
    · simp [Fin.tail]

theorem mem_allPoints {s i : Ix R} : i ∈ allPoints s ↔ InShape s i := by
  unfold allPoints InShape
  rw [mem_product]
  simp

theorem length_allPoints (s : Ix R) : (allPoints s).length = count s := by
  unfold allPoints count
  rw [length_product]
  simp

theorem axisPoints_one (start n skips : Nat) :
    axisPoints start n skips 1 = (List.range n).map fun k => start + k * skips := by
  unfold axisPoints
  simp only [List.range_one, List.map_cons, List.map_nil, add_zero]
  induction List.range n with
  | nil => rfl
  | cons x l ih => simp [ih]

private theorem getElem?_flatMap_const {γ δ : Type} (l : List γ) (g : γ → List δ) (m : Nat) (h : ∀ x ∈ l, (g x).length = m)
    (a b : Nat) (hb : b < m) : (l.flatMap g)[a * m + b]? = (l[a]?).bind fun x => (g x)[b]? := by
  induction l generalizing a with
  | nil => simp
  | cons x l ih =>
    rw [List.flatMap_cons]
    have hx := h x (by simp)
    cases a with
    | zero => rw [zero_mul, zero_add, List.getElem?_append_left (by omega)]; rfl
    | succ a =>
      rw [List.getElem?_append_right (by rw [hx]; nlinarith), hx,
        show (a + 1) * m + b - m = a * m + b by rw [Nat.succ_mul]; omega, ih (fun y hy => h y (by simp [hy]))]
      rfl

private theorem allPoints_off (s i : Ix R) (h : InShape s i) : (allPoints s)[off s i]? = some i := by
  induction R with
  | zero => simp [allPoints, product, off]; funext a; exact a.elim0
  | succ R ih =>
    have ht : InShape (Fin.tail s) (Fin.tail i) := fun a => h a.succ
    have e : allPoints s = (List.range (s 0)).flatMap fun x => (allPoints (Fin.tail s)).map fun i => Fin.cons x i := rfl
    have e2 : off s i = i 0 * count (Fin.tail s) + off (Fin.tail s) (Fin.tail i) := rfl
    rw [e, e2, getElem?_flatMap_const _ _ (count (Fin.tail s)) (by simp [length_allPoints]) _ _ (off_lt _ _ ht)]
    have h0 : i 0 < s 0 := h 0
    rw [List.getElem?_range h0]
    simp [ih _ _ ht]

private theorem readAll_map (A : Arr R α) (f : Ix R → α) (l : List (Ix R)) (h : ∀ i ∈ l, A.get i = .ok (f i)) :
    readAll A l = .ok (l.map f) := by
  induction l with
  | nil => rfl
  | cons i l ih =>
    rw [readAll, h i (by simp), Outcome.bind_ok, ih fun j hj => h j (by simp [hj]), Outcome.bind_ok]
    rfl

private theorem readAll_length (A : Arr R α) (l : List (Ix R)) (v : List α) (h : readAll A l = .ok v) :
    v.length = l.length := by
  induction l generalizing v with
  | nil => cases h; rfl
  | cons i l ih =>
    simp only [readAll, Outcome.bind_eq_ok, Outcome.ok.injEq] at h
    obtain ⟨x, _, vs, hv, rfl⟩ := h
    simp [ih _ hv]

private theorem store_other (data : Ix R → α) (l : List (Ix R × α)) (j : Ix R) (h : ∀ q ∈ l, q.1 ≠ j) :
    store data l j = data j := by
  unfold store
  induction l generalizing data with
  | nil => rfl
  | cons q l ih =>
    rw [List.foldl_cons, ih _ fun x hx => h x (by simp [hx]), Function.update_of_ne (Ne.symm (h q (by simp)))]

private theorem store_at (data : Ix R → α) (l : List (Ix R × α)) (j : Ix R) (v : α) (hm : ∃ q ∈ l, q.1 = j)
    (hv : ∀ q ∈ l, q.1 = j → q.2 = v) : store data l j = v := by
  induction l generalizing data with
  | nil => obtain ⟨q, hq, _⟩ := hm; cases hq
  | cons q l ih =>
    show store (Function.update data q.1 q.2) l j = v
    by_cases hl : ∃ q ∈ l, q.1 = j
    · exact ih _ hl fun x hx => hv x (by simp [hx])
    · rw [store_other _ _ _ fun x hx e => hl ⟨x, hx, e⟩]
      obtain ⟨x, hx, e⟩ := hm
      rcases List.mem_cons.1 hx with rfl | hx
      · rw [← e, Function.update_self]; exact hv x (by simp) e
      · exact absurd ⟨x, hx, e⟩ hl

/-- The hyperslab made for a region selects the indexes of the region, in the order of the array. -/
private theorem select_region (p : AccessPattern R) (h : Regular p) :
    ((makeHyperslab p).bind fun q => select R q) = .ok ((allPoints p.shape).map fun i a => p.start a + i a * p.jumps a) := by
  have hj : p.JumpsOk = true := by
    unfold AccessPattern.JumpsOk
    simp only [List.all_eq_true, decide_eq_true_eq]
    exact fun a _ => by have := (h a).2.1; omega
  have hg : ∀ (g : Ix R) (a : Fin R), (List.ofFn g).getD a 0 = g a := by
    intro g a
    simp [List.getD]
  have hr : ∀ a : Fin R, (List.replicate R 1).getD a 0 = 1 := by
    intro a
    simp [List.getD]
  unfold makeHyperslab select
  rw [hj]
  simp only [Bool.not_true, Bool.false_eq_true, if_false, Outcome.bind_ok, List.length_ofFn, List.length_replicate]
  rw [if_neg (by simp), if_neg]
  · simp only [hg, hr, axisPoints_one]
    unfold allPoints
    rw [product_map (fun a => List.range (p.shape a)) (fun a k => p.start a + k * p.jumps a)]
  · simp only [List.any_eq_true, List.mem_range, not_exists, not_and]
    intro a ha
    have e1 := hg p.jumps ⟨a, ha⟩
    have e2 := hr ⟨a, ha⟩
    have e3 := (h ⟨a, ha⟩).2.1
    simp only at e1 e2
    rw [e1, e2]
    simp only [Bool.or_eq_true, Bool.and_eq_true, decide_eq_true_eq]
    omega

private theorem region_points {p : AccessPattern R} (h : Regular p) {j : Ix R} :
    j ∈ ((allPoints p.shape).map fun i a => p.start a + i a * p.jumps a) ↔ InRegion p j := by
  simp only [List.mem_map, mem_allPoints]
  constructor
  · rintro ⟨i, hi, rfl⟩ a
    refine ⟨i a, rfl, ?_⟩
    have := hi a
    rw [AccessPattern.shape_eq h a, AccessPattern.lt_len (h a).1 (h a).2.1] at this
    exact this
  · intro hj
    choose k hk hl using hj
    refine ⟨k, fun a => ?_, funext fun a => (hk a).symm⟩
    rw [AccessPattern.shape_eq h a, AccessPattern.lt_len (h a).1 (h a).2.1, ← hk a]
    exact hl a

/-! ### C104 -/

/-- Writing an array of the shape of a region to that region stores the value at every index of the array
at the corresponding index of the region, and leaves everything else in the dataset as it was. -/
theorem write_region (D : Dataset R α) (p : AccessPattern R) (hp : Regular p) (A : Arr R α) (f : Ix R → α)
    (hA : Denotes A p.shape f) (hin : ∀ j, InRegion p j → InShape D.extent j) :
    ∃ D', writeRegion D A p = .ok D' ∧ D'.extent = D.extent ∧
      (∀ i, InShape p.shape i → D'.data (fun a => p.start a + i a * p.jumps a) = f i) ∧
      ∀ j, ¬ InRegion p j → D'.data j = D.data j := by
  have e := select_region p hp
  unfold writeRegion
  rw [← Outcome.bind_assoc, e, Outcome.bind_ok]
  unfold writeArray
  rw [hA.1, readAll_map A f _ fun i hi => hA.2 i (mem_allPoints.1 hi), Outcome.bind_ok]
  unfold transferOut
  rw [if_neg (by simp), if_neg]
  · refine ⟨_, rfl, rfl, fun i hi => ?_, fun j hj => ?_⟩
    · show store D.data _ _ = _
      rw [List.zip_map']
      refine store_at _ _ _ _ ⟨_, List.mem_map.2 ⟨i, mem_allPoints.2 hi, rfl⟩, rfl⟩ ?_
      intro q hq e
      obtain ⟨k, hk, rfl⟩ := List.mem_map.1 hq
      have : k = i := by
        funext a
        have := congrFun e a
        exact Nat.eq_of_mul_eq_mul_right (hp a).2.1 (Nat.add_left_cancel this)
      rw [this]
    · show store D.data _ _ = _
      refine store_other _ _ _ fun q hq e => hj ?_
      rw [← e]
      exact (region_points hp).1 (List.of_mem_zip hq).1
  · simp only [Bool.not_eq_true', Bool.not_eq_false, List.all_eq_true]
    exact fun j hj => contains_eq.2 (hin j ((region_points hp).1 hj))

/-- An array with another number of elements than the region is refused, and so is a region that leaves
the dataset. -/
theorem write_region_refused (D : Dataset R α) (p : AccessPattern R) (hp : Regular p) (A : Arr S α) (s : Ix S)
    (f : Ix S → α) (hA : Denotes A s f)
    (h : count s ≠ count p.shape ∨ ∃ j, InRegion p j ∧ ¬ InShape D.extent j) :
    writeRegion D A p = .throws .invalidArgument := by
  have e := select_region p hp
  unfold writeRegion
  rw [← Outcome.bind_assoc, e, Outcome.bind_ok]
  unfold writeArray
  rw [hA.1, readAll_map A f _ fun i hi => hA.2 i (mem_allPoints.1 hi), Outcome.bind_ok]
  unfold transferOut
  by_cases hc : count s = count p.shape
  · obtain ⟨j, h1, h2⟩ := h.resolve_left (fun g => g hc)
    rw [if_neg (by simp [length_allPoints, hc]), if_pos]
    rw [Bool.not_eq_true', Bool.eq_false_iff]
    intro g
    exact h2 (contains_eq.1 (List.all_eq_true.1 g j ((region_points hp).2 h1)))
  · rw [if_pos (by simpa [length_allPoints] using hc)]

private theorem writeRegions_ok (D : Dataset R α) (g : Ix R → α) (l : List (Arr R α × AccessPattern R))
    (hl : ∀ q ∈ l, Regular q.2 ∧ (∀ j, InRegion q.2 j → InShape D.extent j) ∧
      Denotes q.1 q.2.shape fun i => g fun a => q.2.start a + i a * q.2.jumps a) :
    ∃ D', writeRegions D l = .ok D' ∧ D'.extent = D.extent ∧
      (∀ j, (∃ q ∈ l, InRegion q.2 j) → D'.data j = g j) ∧
      ∀ j, (¬ ∃ q ∈ l, InRegion q.2 j) → D'.data j = D.data j := by
  induction l generalizing D with
  | nil => exact ⟨D, rfl, rfl, fun j ⟨q, hq, _⟩ => absurd hq (by simp), fun _ _ => rfl⟩
  | cons q l ih =>
    obtain ⟨A, p⟩ := q
    obtain ⟨h1, h2, h3⟩ := hl (A, p) (by simp)
    obtain ⟨D1, e1, x1, a1, b1⟩ := write_region D p h1 A _ h3 h2
    obtain ⟨D2, e2, x2, a2, b2⟩ := ih D1 fun q hq => by rw [x1]; exact hl q (by simp [hq])
    refine ⟨D2, by rw [writeRegions, e1, Outcome.bind_ok]; exact e2, x2.trans x1, ?_, ?_⟩
    · rintro j ⟨q, hq, hj⟩
      by_cases hl : ∃ q ∈ l, InRegion q.2 j
      · exact a2 j hl
      · rcases List.mem_cons.1 hq with rfl | hq
        · rw [b2 j hl]
          obtain ⟨i, hi, e⟩ := List.mem_map.1 ((region_points h1).2 hj)
          rw [← e]
          exact a1 i (mem_allPoints.1 hi)
        · exact absurd ⟨q, hq, hj⟩ hl
    · intro j hj
      rw [b2 j fun ⟨q, hq, h⟩ => hj ⟨q, by simp [hq], h⟩, b1 j fun h => hj ⟨(A, p), by simp, h⟩]

/-- Writing the blocks of a decomposition, in any order, each block with the part of an array that belongs
to it, stores the whole array. -/
theorem write_blocks (gs bs : Ix R) (hg : ∀ a, gs a < 2 ^ 31) (hb0 : ∀ a, 0 < bs a) (hle : ∀ a, bs a ≤ gs a)
    (g : Ix R → α) (D : Dataset R α) (hD : D.extent = gs) :
    ∃ B blk, createAccessPatternArray gs bs = .ok B ∧ Denotes B bs blk ∧
      ∀ (part : Ix R → Arr R α),
        (∀ n, InShape bs n → Denotes (part n) (blk n).shape fun i => g ((blk n).mapIndex i)) →
        ∀ order : List (Ix R), (∀ n, n ∈ order ↔ InShape bs n) →
          ∃ D', writeRegions D (order.map fun n => (part n, blk n)) = .ok D' ∧ D'.extent = gs ∧
            ∀ i, InShape gs i → D'.data i = g i := by
  obtain ⟨B, blk, h1, h2, h3, h4, _⟩ := (block_regions gs bs hg hb0
    (fun a => by have := hg a; have := hle a; omega)).1 hle
  refine ⟨B, blk, h1, h2, fun part hpart order hord => ?_⟩
  obtain ⟨D', e, x, a, _⟩ := writeRegions_ok D g (order.map fun n => (part n, blk n)) (by
    intro q hq
    obtain ⟨n, hn, rfl⟩ := List.mem_map.1 hq
    have hn := (hord n).1 hn
    obtain ⟨hr, hi⟩ := h4 n hn
    refine ⟨hr, fun j hj => by rw [hD]; exact hi j hj, (hpart n hn).1, fun i hi => ?_⟩
    rw [(hpart n hn).2 i hi]
    refine congrArg Outcome.ok (congrArg g ?_)
    have hlen := (region_points hr).1 (List.mem_map.2 ⟨i, mem_allPoints.2 hi, rfl⟩)
    rw [mapIndex_eq _ _ fun a => by
      obtain ⟨_, _, h⟩ := hlen a
      have := (hr a).2.2
      simp only [mul_comm] at h ⊢
      omega]
    funext a
    rw [mul_comm])
  refine ⟨D', e, x.trans hD, fun i hi => ?_⟩
  obtain ⟨n, ⟨hn, hj⟩, _⟩ := h3 i hi
  exact a i ⟨_, List.mem_map.2 ⟨n, (hord n).2 hn, rfl⟩, hj⟩

private theorem nodup_allPoints (s : Ix R) : (allPoints s).Nodup := by
  rw [List.nodup_iff_injective_getElem]
  have key : ∀ n : Fin (allPoints s).length, off s ((allPoints s)[n.1]) = n.1 := by
    intro n
    obtain ⟨i, hi, e⟩ := off_surj s n.1 (by rw [← length_allPoints]; exact n.2)
    have h := allPoints_off s i hi
    rw [e, List.getElem?_eq_getElem n.2] at h
    rw [Option.some.inj h, e]
  intro m n h
  have := congrArg (off s) h
  simp only at this
  rw [key m, key n] at this
  exact Fin.ext this

private theorem region_count (p : AccessPattern R) (hp : Regular p) (s : Ix R)
    (hin : ∀ j, InRegion p j → InShape s j) :
    (∀ j, InShape s j → InRegion p j) ↔ count s = count p.shape := by
  classical
  set pts := (allPoints p.shape).map fun i a => p.start a + i a * p.jumps a with hpts
  have hnd : pts.Nodup := by
    refine (nodup_allPoints _).map ?_
    intro i j h
    funext a
    exact Nat.eq_of_mul_eq_mul_right (hp a).2.1 (Nat.add_left_cancel (congrFun h a))
  have hsub : pts.toFinset ⊆ (allPoints s).toFinset := by
    intro j hj
    rw [List.mem_toFinset] at hj ⊢
    exact mem_allPoints.2 (hin j ((region_points hp).1 hj))
  have c1 : pts.toFinset.card = count p.shape := by
    rw [List.toFinset_card_of_nodup hnd, hpts, List.length_map, length_allPoints]
  have c2 : (allPoints s).toFinset.card = count s := by
    rw [List.toFinset_card_of_nodup (nodup_allPoints s), length_allPoints]
  constructor
  · intro h
    rw [← c1, ← c2]
    congr 1
    refine Finset.Subset.antisymm (fun j hj => ?_) hsub
    rw [List.mem_toFinset] at hj ⊢
    exact (region_points hp).2 (h j (mem_allPoints.1 hj))
  · intro h j hj
    have := Finset.eq_of_subset_of_card_le hsub (by rw [c1, c2, h])
    have hm : j ∈ pts.toFinset := by rw [this, List.mem_toFinset]; exact mem_allPoints.2 hj
    exact (region_points hp).1 (List.mem_toFinset.1 hm)

/-- Reading a region that is not the whole dataset as an array always throws. -/
theorem read_region_violated (D : Dataset R α) (p : AccessPattern R) (hp : Regular p)
    (hin : ∀ j, InRegion p j → InShape D.extent j) (hne : ∃ j, InShape D.extent j ∧ ¬ InRegion p j) :
    readRegion D p = .throws .invalidArgument := by
  have e := select_region p hp
  unfold readRegion
  rw [← Outcome.bind_assoc, e, Outcome.bind_ok]
  unfold readArray transferIn readArray.count
  have hc : count D.extent ≠ count p.shape := by
    intro h
    obtain ⟨j, h1, h2⟩ := hne
    exact h2 ((region_count p hp _ hin).2 h j h1)
  rw [length_allPoints, if_pos (by simpa [length_allPoints] using hc)]
  rfl

/-- Reading all of a dataset gives its values: as an array of its shape, through the whole region. -/
theorem read_region_partial (D : Dataset R α) (hpos : ∀ a, 0 < D.extent a) (hs : count D.extent < 2 ^ 31) :
    ∃ A, readRegion D (makeAccessPattern D.extent) = .ok A ∧ Denotes A D.extent D.data := by
  have hle : ∀ a, D.extent a ≤ count D.extent := fun a =>
    Nat.le_of_dvd (count_pos.2 hpos) (Finset.dvd_prod_of_mem _ (Finset.mem_univ a))
  have hp : Regular (makeAccessPattern D.extent) := fun a =>
    ⟨hpos a, Nat.one_pos, by have := hle a; show D.extent a + 1 ≤ _; omega⟩
  have hsh : (makeAccessPattern D.extent).shape = D.extent := by
    funext a
    rw [AccessPattern.shape_eq hp a]
    have := hpos a
    simp only [AccessPattern.len, makeAccessPattern]
    omega
  have e := select_region _ hp
  rw [hsh] at e
  have hpt : ((allPoints D.extent).map fun i a => (makeAccessPattern D.extent).start a +
      i a * (makeAccessPattern D.extent).jumps a) = allPoints D.extent := by
    simp [makeAccessPattern]
  rw [hpt] at e
  unfold readRegion
  rw [← Outcome.bind_assoc, e, Outcome.bind_ok]
  unfold readArray transferIn readArray.count
  rw [if_neg (by simp), if_neg, Outcome.bind_ok]
  · refine ofBuffer_denotes hs (by rw [List.length_map, length_allPoints]) fun i hi => ?_
    rw [List.getElem?_map, allPoints_off _ _ hi]
    rfl
  · simp only [Bool.not_eq_true', Bool.not_eq_false, List.all_eq_true]
    exact fun j hj => contains_eq.2 (mem_allPoints.1 hj)

private theorem select_one (n : Nat) : select 1 ⟨[n], [1], [1], [1]⟩ = .ok [fun _ => n] := by
  unfold select
  rw [if_neg (by simp), if_neg (by simp)]
  congr 1
  simp only [product, axisPoints]
  simp
  funext a
  rw [Fin.fin_one_eq_zero a]
  rfl

/-- Reading one entry of a column gives that entry; one that is not there throws. -/
theorem read_sample (D : Dataset 1 α) (l : List α) (hD : Holds D l) (n : Nat) :
    (∀ h : n < l.length, (select 1 ⟨[n], [1], [1], [1]⟩).bind (readScalar D) = .ok l[n]) ∧
    (l.length ≤ n → (select 1 ⟨[n], [1], [1], [1]⟩).bind (readScalar D) = .throws .invalidArgument) := by
  rw [select_one, Outcome.bind_ok]
  unfold readScalar transferIn
  rw [if_neg (by simp)]
  constructor
  · intro h
    rw [if_neg (by simp [contains, hD.1, h]), ← hD.2 n h]
    rfl
  · intro h
    rw [if_pos (by simp [contains, hD.1, h])]
    rfl

example : Holds (⟨fun _ => 2, fun i => i 0 + 5⟩ : Dataset 1 Nat) [5, 6] :=
  ⟨rfl, fun k hk => by match k, hk with | 0, _ => rfl | 1, _ => rfl⟩

/-- A number is not read from several places at once, nor from none: an exception is thrown. -/
theorem read_scalar_refused (D : Dataset R α) (h : Hyperslab) (pts : List (Ix R)) (hs : select R h = .ok pts) (hn : pts.length ≠ 1) :
    (select R h).bind (readScalar D) = .throws .invalidArgument := by
  rw [hs, Outcome.bind_ok]
  unfold readScalar transferIn
  rw [if_pos (Ne.symm hn)]
  rfl

example : ∃ pts, select 1 ⟨[0], [2], [1], [1]⟩ = .ok pts ∧ pts.length ≠ 1 := ⟨_, rfl, by decide⟩

/-- Reading a column as a vector gives all its entries. -/
theorem read_column (D : Dataset 1 α) (l : List α) (hD : Holds D l) : readVector D (allPoints D.extent) = .ok l := by
  unfold readVector transferIn readArray.count
  rw [if_neg (by simp), if_neg]
  · congr 1
    have e : allPoints D.extent = (List.range l.length).map fun k _ => k := by
      unfold allPoints
      simp only [product]
      rw [hD.1]
      have : ∀ r : List Nat, (r.flatMap fun x => [(Fin.cons x Fin.elim0 : Ix 1)]) = r.map fun k _ => k := by
        intro r
        induction r with
        | nil => rfl
        | cons a r ih =>
          rw [List.flatMap_cons, ih]
          show _ :: _ = _ :: _
          congr 1
          funext i
          rw [Fin.fin_one_eq_zero i]
          rfl
      simpa using this (List.range l.length)
    rw [e]
    refine List.ext_getElem (by simp) fun k h1 h2 => ?_
    simp [hD.2 k h2]
  · simp only [Bool.not_eq_true', Bool.not_eq_false, List.all_eq_true]
    exact fun j hj => contains_eq.2 (mem_allPoints.1 hj)

example : readVector (⟨fun _ => 2, fun i => i 0 + 5⟩ : Dataset 1 Nat) (allPoints fun _ => 2) = .ok [5, 6] := rfl

/-- Reading a region that is not the whole dataset as a vector always throws. -/
theorem read_vector_violated (D : Dataset R α) (p : AccessPattern R) (hp : Regular p)
    (hin : ∀ j, InRegion p j → InShape D.extent j) (hne : ∃ j, InShape D.extent j ∧ ¬ InRegion p j) :
    ((makeHyperslab p).bind fun h => (select R h).bind fun pts => readVector D pts) = .throws .invalidArgument := by
  have e := select_region p hp
  rw [← Outcome.bind_assoc, e, Outcome.bind_ok]
  unfold readVector transferIn readArray.count
  have hc : count D.extent ≠ count p.shape := by
    intro h
    obtain ⟨j, h1, h2⟩ := hne
    exact h2 ((region_count p hp _ hin).2 h j h1)
  rw [length_allPoints, if_pos (by simpa [length_allPoints] using hc)]

/-! ### C105 -/

/-- Writing entry `n` of a column keeps the first `n` entries and drops the rest; places that were never
written hold zero. -/
theorem append_sample [Zero α] (D : Dataset 1 α) (l : List α) (hD : Holds D l) (n : Nat) (v : α) :
    ∃ D', appendSample D n v = .ok D' ∧ Holds D' (l.take n ++ List.replicate (n - l.length) 0 ++ [v]) := by
  unfold appendSample
  rw [select_one, Outcome.bind_ok]
  unfold writeScalar transferOut
  rw [if_neg (by simp), if_neg]
  · refine ⟨_, rfl, ?_, ?_⟩
    · simp only [setExtent, List.length_append, List.length_take, List.length_replicate, List.length_singleton]
      omega
    · intro k hk
      simp only [List.length_append, List.length_take, List.length_replicate, List.length_singleton] at hk
      have hlen : (l.take n ++ List.replicate (n - l.length) 0).length = n := by
        rw [List.length_append, List.length_take, List.length_replicate]; omega
      show store _ _ _ = _
      by_cases hkn : k = n
      · subst hkn
        rw [List.getElem_append_right (by rw [hlen])]
        rw [store_at _ _ _ v ⟨(fun _ => k, v), by simp, rfl⟩ (by simp)]
        simp
      · have hlt : k < n := by omega
        rw [store_other _ _ _ (by
          intro q hq e
          simp only [List.zip_cons_cons, List.zip_nil_right, List.mem_singleton] at hq
          subst hq
          exact hkn (congrFun e 0).symm)]
        rw [List.getElem_append_left (by rw [hlen]; exact hlt)]
        show (if k < n + 1 ∧ k < D.extent 0 then D.data (fun _ => k) else 0) = _
        rw [hD.1]
        by_cases hkl : k < l.length
        · rw [if_pos ⟨by omega, hkl⟩, hD.2 k hkl, List.getElem_append_left (by rw [List.length_take]; omega)]
          simp
        · rw [if_neg (by omega), List.getElem_append_right (by rw [List.length_take]; omega)]
          simp
  · simp [setExtent, contains]

/-- A column holds the entries of the rows in the order they were written, if the rows are numbered from
zero on. -/
private theorem column_holds {E : Type} [Zero α] (v : E → α) (r : List (Nat × E)) :
    ∀ (l : List α) (D : Dataset 1 α), Holds D l → (∀ (k : Nat) (h : k < r.length), r[k].1 = l.length + k) →
    ∃ D', column v r D = .ok D' ∧ Holds D' (l ++ r.map fun q => v q.2) := by
  induction r with
  | nil => exact fun l D h _ => ⟨D, rfl, by simpa using h⟩
  | cons q r ih =>
    obtain ⟨n, x⟩ := q
    intro l D hD hn
    have h0 := hn 0 (by simp)
    simp only [List.getElem_cons_zero, add_zero] at h0
    subst h0
    obtain ⟨D1, e1, h1⟩ := append_sample D l hD l.length (v x)
    rw [List.take_length, Nat.sub_self, List.replicate_zero, List.append_nil] at h1
    obtain ⟨D2, e2, h2⟩ := ih _ D1 h1 (by
      intro k hk
      have := hn (k + 1) (by simpa using hk)
      simp only [List.getElem_cons_succ] at this
      rw [this, List.length_append, List.length_singleton]
      omega)
    exact ⟨D2, by rw [column, e1, Outcome.bind_ok]; exact e2, by simpa using h2⟩

open Verif.Runs Verif.Runs.App Verif.Sched Verif.Config Verif.Text

variable {σ τ E : Type}

private theorem rows_append (F G : Files σ τ Unit E) : rows (F ++ G) = rows F ++ rows G := by
  unfold rows
  rw [List.filterMap_append]

private theorem series_round {e : Env σ τ E} {w w' : World σ τ E} (h : runTasks e .sedov w = .ok w') :
    ∃ t, w.1.schedule.get? kSeries = some t ∧ w'.1.schedule.get? kSeries = some (fin t) ∧
      rows w'.2 = rows w.2 ++ if t.due then [(t.num, e.series w.1.solution)] else [] := by
  obtain ⟨_, _, _, hget⟩ := runTasks_ok h
  obtain ⟨t, ht, ht'⟩ := hget (kSeries, kTsi) (by simp [cadences])
  refine ⟨t, ht, ht', ?_⟩
  have step : ∀ {name : Str} {f : State σ τ → Outcome (Files σ τ Unit E)} {tasks} {u u' : World σ τ E},
      taskLoop w.1 ((name, f) :: tasks) u = .ok u' → ∃ t x u1, w.1.schedule.get? name = some t ∧
        (if t.due then f w.1 = .ok x else x = []) ∧ u1.2 = u.2 ++ x ∧ taskLoop w.1 tasks u1 = .ok u' := by
    intro name f tasks u u' h
    simp only [taskLoop, Outcome.bind_eq_ok] at h
    obtain ⟨d, hd, h⟩ := h
    obtain ⟨t, ht, rfl⟩ := isDue_ok.1 hd
    by_cases hb : t.due = true
    · rw [if_pos hb] at h
      simp only [Outcome.bind_eq_ok] at h
      obtain ⟨x, hx, sch, _, h⟩ := h
      exact ⟨t, x, _, ht, by rw [if_pos hb]; exact hx, rfl, h⟩
    · rw [if_neg hb] at h
      exact ⟨t, [], u, ht, by rw [if_neg hb], by simp, h⟩
  obtain ⟨t1, x1, u1, _, g1, a1, h⟩ := step h
  obtain ⟨t2, x2, u2, _, g2, a2, h⟩ := step h
  obtain ⟨t3, x3, u3, ht3, g3, a3, h⟩ := step h
  cases h
  rw [ht] at ht3; cases ht3
  have r1 : rows x1 = [] := by
    split at g1
    · simp only [writeCheckpoint, Outcome.bind_eq_ok, Outcome.ok.injEq] at g1
      obtain ⟨_, _, _, _, rfl⟩ := g1
      rfl
    · subst g1; rfl
  have r2 : rows x2 = [] := by
    split at g2
    · simp only [writeDiagnostics, Outcome.bind_eq_ok, Outcome.ok.injEq] at g2
      obtain ⟨_, _, _, _, rfl⟩ := g2
      rfl
    · subst g2; rfl
  rw [a3, a2, a1]
  simp only [rows_append, r1, r2, List.append_nil]
  congr 1
  by_cases hb : t.due = true
  · rw [if_pos hb] at g3 ⊢
    simp only [writeTimeSeries, Outcome.bind_eq_ok, Outcome.ok.injEq] at g3
    obtain ⟨_, _, n, hn, rfl⟩ := g3
    obtain ⟨t', ht', rfl⟩ := num_ok.1 hn
    rw [ht] at ht'; cases ht'
    rfl
  · rw [if_neg hb] at g3 ⊢
    subst g3; rfl

/-- The file of the time series over a run of the sedov program: at every round, each column holds one
entry for every time the task was performed, in order, and the last round has added the entry of its own
solution if it performed the task, and nothing otherwise. -/
theorem sedov_series [Field τ] [LinearOrder τ] [Zero α] {e : Env σ τ E}
    {fresh : Config τ → Outcome σ} {fs : Str → Option (Checkpoint σ τ Unit)} {cfg : Config τ}
    {s0 : State σ τ} {w : Nat → World σ τ E} {n : Nat} (hfresh : cfg.getString kRestart = .ok [])
    (h0 : createState .sedov fresh fs cfg = .ok s0) (h1 : runTasks e .sedov (s0, []) = .ok (w 0))
    (hb : ∀ i < n, body e .sedov (w i) = .ok (w (i + 1))) (v : E → α) :
    (∀ i ≤ n, ∃ D, column v (rows (w i).2) newColumn = .ok D ∧ Holds D ((rows (w i).2).map fun q => v q.2) ∧
      (rows (w i).2).length = performed (w i).1.schedule kSeries) ∧
    (rows (w 0).2).map Prod.snd = [e.series (w 0).1.solution] ∧
    ∀ i < n, (rows (w (i + 1)).2).map Prod.snd = (rows (w i).2).map Prod.snd ++
      if performed (w (i + 1)).1.schedule kSeries = performed (w i).1.schedule kSeries then []
      else [e.series (w (i + 1)).1.solution] := by
  have start : ∃ t, s0.schedule.get? kSeries = some t ∧ t.due = true ∧ t.num = 0 := by
    simp only [createState, hfresh, Outcome.bind_ok, List.isEmpty_nil, if_true, Outcome.bind_eq_ok,
      Outcome.ok.injEq] at h0
    obtain ⟨sol, _, sch, hsch, rfl⟩ := h0
    have : (newSchedule .sedov : Outcome (Schedule τ)) = .ok
      [(kCheckpoint, ⟨kCheckpoint, 0, 0 + 0, true⟩), (kDiagnostics, ⟨kDiagnostics, 0, 0 + 0, true⟩),
       (kSeries, ⟨kSeries, 0, 0 + 0, true⟩)] := by rfl
    rw [this] at hsch
    cases hsch
    exact ⟨⟨kSeries, 0, 0 + 0, true⟩, rfl, rfl, rfl⟩
  -- one round
  have round : ∀ {u u' : World σ τ E} {t : TaskRec τ}, runTasks e .sedov u = .ok u' →
      u.1.schedule.get? kSeries = some t →
      ((rows u.2).length = t.num ∧ ∀ (k : Nat) (h : k < (rows u.2).length), (rows u.2)[k].1 = k) →
      (∃ t', u'.1.schedule.get? kSeries = some t' ∧ t'.num = t.num + (if t.due then 1 else 0) ∧
        (rows u'.2).length = t'.num ∧ ∀ (k : Nat) (h : k < (rows u'.2).length), (rows u'.2)[k].1 = k) ∧
      (rows u'.2).map Prod.snd = (rows u.2).map Prod.snd ++ if t.due then [e.series u'.1.solution] else [] := by
    rintro u u' t hr ht ⟨hl, hk⟩
    obtain ⟨t1, g1, g2, g3⟩ := series_round hr
    rw [ht] at g1; cases g1
    have hsol := (runTasks_ok hr).1
    rw [hsol]
    by_cases hd : t.due = true
    · rw [if_pos hd] at g3
      refine ⟨⟨fin t, g2, by rw [fin_num], by rw [g3, fin_num, hd]; simp [hl], ?_⟩, by rw [g3, if_pos hd]; simp⟩
      intro k hk'
      rw [List.getElem_of_eq g3 hk']
      by_cases hkl : k < (rows u.2).length
      · rw [List.getElem_append_left hkl]; exact hk k hkl
      · rw [g3] at hk'
        simp only [List.length_append, List.length_singleton] at hk'
        rw [List.getElem_append_right (by omega)]
        simp only [List.getElem_singleton]
        omega
    · rw [if_neg hd, List.append_nil] at g3
      refine ⟨⟨fin t, g2, by rw [fin_num], by rw [g3, fin_num, hl]; simp [hd], ?_⟩, by rw [g3, if_neg hd]; simp⟩
      rw [g3]; exact hk
  obtain ⟨t0, ht0, hd0, hn0⟩ := start
  obtain ⟨⟨t1, i1, i2, i3, i4⟩, i5⟩ := round h1 ht0 ⟨by rw [hn0]; rfl, fun k h => absurd h (by simp [rows])⟩
  have hall : ∀ i ≤ n, ∃ t, (w i).1.schedule.get? kSeries = some t ∧ (rows (w i).2).length = t.num ∧
      ∀ (k : Nat) (h : k < (rows (w i).2).length), (rows (w i).2)[k].1 = k := by
    intro i hi
    induction i with
    | zero => exact ⟨t1, i1, i3, i4⟩
    | succ i ih =>
      obtain ⟨t, a1, a2, a3⟩ := ih (by omega)
      have := hb i hi
      simp only [body, Outcome.bind_eq_ok] at this
      obtain ⟨s', hs', hr⟩ := this
      obtain ⟨x', t', _, ht', hs⟩ := (next_ok hs').2.2.2 (kSeries, kTsi) (by simp [cadences])
      have e2 : t' = t := Option.some.inj (ht'.symm.trans a1)
      subst e2
      have hsnum : ∀ c : Prop, [Decidable c] → ∀ y : τ, (if c then { t' with due := true, last := y } else t').num = t'.num := by
        intro c _ y; split <;> rfl
      obtain ⟨⟨t2, j1, _, j3, j4⟩, _⟩ := round (u := (s', (w i).2)) hr hs ⟨by rw [hsnum]; exact a2, a3⟩
      exact ⟨t2, j1, j3, j4⟩
  refine ⟨fun i hi => ?_, ?_, fun i hi => ?_⟩
  · obtain ⟨t, a1, a2, a3⟩ := hall i hi
    obtain ⟨D, e1, e2⟩ := column_holds v (rows (w i).2) [] newColumn ⟨rfl, fun k h => absurd h (by simp)⟩
      (fun k h => by rw [a3 k h]; simp)
    exact ⟨D, e1, by simpa using e2, by simp [performed, a1, a2]⟩
  · rw [i5, if_pos hd0]; rfl
  · obtain ⟨t, a1, a2, a3⟩ := hall i (by omega)
    have := hb i hi
    simp only [body, Outcome.bind_eq_ok] at this
    obtain ⟨s', hs', hr⟩ := this
    obtain ⟨x', t', _, ht', hs⟩ := (next_ok hs').2.2.2 (kSeries, kTsi) (by simp [cadences])
    have e2 : t' = t := Option.some.inj (ht'.symm.trans a1)
    subst e2
    have hsnum : ∀ c : Prop, [Decidable c] → ∀ y : τ, (if c then { t' with due := true, last := y } else t').num = t'.num := by
      intro c _ y; split <;> rfl
    obtain ⟨T, hT, hTn⟩ : ∃ T, s'.schedule.get? kSeries = some T ∧ T.num = t'.num := ⟨_, hs, hsnum _ _⟩
    obtain ⟨⟨t2, j1, j2, _⟩, j5⟩ := round (u := (s', (w i).2)) hr hT ⟨by rw [hTn]; exact a2, a3⟩
    rw [hTn] at j2
    rw [j5]
    congr 1
    simp only [performed, j1, a1, Option.elim, j2]
    by_cases hd : T.due = true
    · rw [if_pos hd, if_pos hd, if_neg (by omega)]
    · rw [if_neg hd, if_neg hd, if_pos (by omega)]

/-! ### Examples -/

/-- A region of a dataset of three by four places, with a stride. -/
private def exRegion : AccessPattern 2 := ⟨![1, 0], ![3, 4], ![1, 2]⟩

private theorem exRegion_regular : Regular exRegion := by unfold Regular; decide

example : ∃ D', writeRegion (⟨![3, 4], fun _ => 0⟩ : Dataset 2 Nat) (promote 7 exRegion.shape) exRegion = .ok D' ∧
    D'.extent = ![3, 4] ∧
    (∀ i, InShape exRegion.shape i → D'.data (fun a => exRegion.start a + i a * exRegion.jumps a) = 7) ∧
    ∀ j, ¬ InRegion exRegion j → D'.data j = 0 :=
  write_region ⟨![3, 4], fun _ => 0⟩ exRegion exRegion_regular _ (fun _ => 7) ⟨rfl, fun _ _ => rfl⟩ (by
    intro j hj a
    obtain ⟨k, hk, h⟩ := hj a
    fin_cases a
    · exact h
    · exact h)

example : readRegion (⟨![3, 4], fun i => i 0⟩ : Dataset 2 Nat) exRegion = .throws .invalidArgument :=
  read_region_violated _ _ exRegion_regular (by
    intro j hj a
    obtain ⟨k, hk, h⟩ := hj a
    fin_cases a
    · exact h
    · exact h) ⟨![0, 0], by unfold InShape; decide, by
    intro h
    obtain ⟨k, hk, _⟩ := h 0
    simp [exRegion] at hk
    omega⟩

example : writeRegion (⟨![3, 4], fun _ => 0⟩ : Dataset 2 Nat) (promote 7 ![5]) exRegion = .throws .invalidArgument :=
  write_region_refused _ _ exRegion_regular _ ![5] (fun _ => 7) ⟨rfl, fun _ _ => rfl⟩ (Or.inl (by decide))

example := write_blocks (α := Nat) ![5, 7] ![2, 3] (by decide) (by decide) (by decide) (fun i => 10 * i 0 + i 1)
  ⟨![5, 7], fun _ => 0⟩ rfl

example : ∃ A, readRegion (⟨![3, 4], fun i => i 0⟩ : Dataset 2 Nat) (makeAccessPattern ![3, 4]) = .ok A ∧
    Denotes A ![3, 4] fun i => i 0 :=
  read_region_partial ⟨![3, 4], fun i => i 0⟩ (by decide) (by decide)

example : ∃ D', appendSample (⟨fun _ => 3, fun i => i 0 + 1⟩ : Dataset 1 Nat) 2 9 = .ok D' ∧ Holds D' [1, 2, 9] :=
  append_sample _ [1, 2, 3] ⟨rfl, by decide⟩ 2 9

/-- The rows of the run of `Props/Schedule.lean`, which meets the hypotheses of `sedov_series`. -/
private def exRows (o : Outcome (World ℚ ℚ ℚ)) : List (Nat × ℚ) :=
  match o with
  | .ok w => rows w.2
  | _ => []

example : exRows (exAppRun .sedov 9) = [(0, 0), (1, 8)] := by decide +kernel

end Verif.H5
