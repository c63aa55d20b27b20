import Verif.Lemmas.Mpi
import Mathlib.Tactic.ByContra
import Mathlib.Algebra.Order.BigOperators.Group.List

/-!
# Collectives (C49) and receiving (C50)
-/

namespace Verif.Mpi

/-- Scattering scalars: rank `i` gets the `i`-th. -/
theorem scatter_scalars (c : Codec α) (lax : Bool) (N root : Nat) (vals : Nat → List α)
    (hr : root < N) (hlen : (vals root).length = N) (h : lax = true ∨ ∀ r < N, vals r ≠ []) :
    scatter c lax N root vals = .ok (vals root) := by
  unfold scatter
  rw [if_neg (by simp [hlen])]
  rw [mapO_ok (g := fun _ => ()) (by
    intro r hr
    rcases h with rfl | h
    · exact addr_lax _
    · exact addr_nonempty _ (h r (List.mem_range.1 hr)))]
  rw [Outcome.bind_ok, mpiScatter]
  have : ∀ i ∈ List.range N, slice (c.bytes (vals root)) (i * c.sz) c.sz =
      .ok (((c.bytes (vals root)).drop (i * c.sz)).take c.sz) := by
    intro i hi
    rw [List.mem_range] at hi
    rw [slice, if_pos]
    rw [bytes_length, hlen]
    calc i * c.sz + c.sz = (i + 1) * c.sz := by ring
      _ ≤ N * c.sz := Nat.mul_le_mul_right _ hi
  rw [mapO_ok this, Outcome.map_ok, List.map_map]
  have h2 := read_bytes c (vals root)
  rw [hlen] at h2
  exact congrArg Outcome.ok h2

example : scatter byteCodec false 3 1 (fun _ => [7, 8, 9]) = .ok [7, 8, 9] :=
  scatter_scalars byteCodec false 3 1 (fun _ => [7, 8, 9]) (by decide) rfl (Or.inr fun _ _ => by simp)

/-- **C49, scatter, as far as it holds.** If `&v[0]` is tolerated for empty vectors and the containers have
less than 2^31 bytes together, then rank `i` gets the `i`-th container of the root, whatever the sizes.
What is missing: by the standard the other ranks' `&v[0]` of an empty vector is undefined
(`scatterv_violated`), and sizes from 2^31 bytes on do not fit an `int`. -/
theorem scatterv_partial (ci : Codec Int) (c : Codec α) (N root : Nat) (vals : Nat → List (List α))
    (hr : root < N) (hlen : (vals root).length = N)
    (hsz : (vals root).flatten.length * c.sz < 2 ^ 31) :
    scatterv ci c true N root vals = .ok (vals root) := by
  obtain ⟨x, xs, hL⟩ : ∃ x xs, vals root = x :: xs := by
    cases h : vals root with
    | nil => rw [h] at hlen; simp at hlen; omega
    | cons x xs => exact ⟨x, xs, rfl⟩
  have hsum : (sizes c (vals root)).sum < 2 ^ 31 := by rw [sizes_sum]; exact hsz
  have hle : ∀ v ∈ vals root, v.length * c.sz < 2 ^ 31 := by
    intro v hv
    refine lt_of_le_of_lt ?_ hsum
    exact List.le_sum_of_mem (List.mem_map.2 ⟨v, hv, rfl⟩)
  have hcounts : ((vals root).map fun v => toInt (v.length * c.sz)) =
      (sizes c (vals root)).map (Nat.cast : Nat → Int) := by
    rw [sizes, List.map_map]
    exact List.map_congr_left fun v hv => toInt_small (hle v hv)
  unfold scatterv
  rw [if_neg (by simp [hlen])]
  simp only
  rw [hcounts]
  obtain ⟨ps, h1, h2⟩ := partialSum_dropLast 0 (x.length * c.sz) (sizes c xs) (by
    have : (sizes c (vals root)) = x.length * c.sz :: sizes c xs := by rw [hL]; rfl
    rw [this] at hsum
    omega)
  have hs : sizes c (vals root) = x.length * c.sz :: sizes c xs := by rw [hL]; rfl
  have h1' : partialSum 0 ((sizes c (vals root)).map (Nat.cast : Nat → Int)).dropLast = .ok ps := by
    rw [hs]; exact h1
  have h2' : (0 : Int) :: ps = (offs 0 (sizes c (vals root))).map (Nat.cast : Nat → Int) := by
    rw [hs]; exact h2
  rw [h1', Outcome.bind_ok]
  rw [scatter_scalars ci true N root _ hr (by simp [sizes, hlen]) (Or.inl rfl)]
  rw [Outcome.bind_ok, if_pos rfl, addr_lax, Outcome.bind_ok, h2']
  have := scatterv_pieces c [] (vals root)
  simp only [List.nil_append, List.length_nil] at this
  rw [this, Outcome.bind_ok]
  have hz : ((sizes c (vals root)).map (Nat.cast : Nat → Int)).zip ((vals root).map c.bytes) =
      (vals root).map fun v => (((v.length * c.sz : Nat) : Int), c.bytes v) := by
    rw [sizes, List.map_map, List.zip_map']
    rfl
  rw [hz]
  have hfin : ∀ p ∈ (vals root).map fun v => (((v.length * c.sz : Nat) : Int), c.bytes v),
      intoVector c true p.1 p.2 = .ok (c.read (elems c p.1) p.2) := by
    intro p hp
    obtain ⟨v, hv, rfl⟩ := List.mem_map.1 hp
    rw [intoVector_bytes c v (hle v hv) true (Or.inl rfl), elems_small c (hle v hv), read_bytes]
  rw [mapO_ok hfin, List.map_map]
  have hid : ∀ v ∈ vals root, ((fun p : Int × List Byte => c.read (elems c p.1) p.2) ∘
      fun v => (((v.length * c.sz : Nat) : Int), c.bytes v)) v = id v := by
    intro v hv
    simp only [Function.comp, id]
    rw [elems_small c (hle v hv), read_bytes]
  rw [List.map_congr_left hid, List.map_id]

/-- The root must pass one container for each rank. -/
theorem scatterv_throws (ci : Codec Int) (c : Codec α) (lax : Bool) (N root : Nat)
    (vals : Nat → List (List α)) (hlen : (vals root).length ≠ N) :
    scatterv ci c lax N root vals = .throws .invalidArgument := by
  unfold scatterv
  rw [if_pos hlen]

example (ci : Codec Int) : scatterv ci byteCodec true 3 1 (fun _ => [[1, 2], [3]]) = .throws .invalidArgument :=
  scatterv_throws ci byteCodec true 3 1 _ (by decide)

/-- **C49 is violated**, scatter: with two ranks or more and small containers, the behaviour is undefined
by the C++ standard whatever is scattered, as the ranks other than the root evaluate `&values[0]` for a
vector without elements. -/
theorem scatterv_violated (ci : Codec Int) (c : Codec α) (N root : Nat) (vals : Nat → List (List α))
    (hN : 2 ≤ N) (hr : root < N) (hlen : (vals root).length = N) :
    scatterv ci c false N root vals = .ub := by
  unfold scatterv
  rw [if_neg (by simp [hlen])]
  simp only
  have hs : ∀ l : List Int, l.length = N →
      scatter ci false N root (fun r => if r = root then l else []) = .ub := by
    intro l hl
    unfold scatter
    rw [if_neg (by simp [hl])]
    rw [mapO_ub (g := fun _ => ())]
    · rfl
    · intro r _
      beta_reduce
      by_cases h : r = root
      · rw [if_pos h]
        left
        refine addr_nonempty _ ?_
        intro e
        rw [e] at hl
        simp at hl
        omega
      · rw [if_neg h]
        right
        rfl
    · obtain ⟨r, hrN, hne⟩ : ∃ r < N, r ≠ root := by
        by_cases h0 : root = 0
        · exact ⟨1, by omega, by omega⟩
        · exact ⟨0, by omega, by omega⟩
      refine ⟨r, List.mem_range.2 hrN, ?_⟩
      beta_reduce
      rw [if_neg hne]
      rfl
  have hp : ∀ (a : Int) (l : List Int), (∃ ps, partialSum a l = .ok ps) ∨ partialSum a l = .ub := by
    intro a l
    induction l generalizing a with
    | nil => exact Or.inl ⟨[], rfl⟩
    | cons x xs ih =>
      simp only [partialSum, iadd]
      split
      · rw [Outcome.bind_ok]
        rcases ih (a + x) with ⟨ps, h⟩ | h
        · left; rw [h]; exact ⟨_, rfl⟩
        · right; rw [h]; rfl
      · exact Or.inr rfl
  rcases hp 0 ((vals root).map fun v => toInt (v.length * c.sz)).dropLast with ⟨ps, h⟩ | h
  · rw [h, Outcome.bind_ok, hs _ (by simp [hlen])]
    rfl
  · rw [h]; rfl

/-- **C49, all_gather, as far as it holds.** If the containers have less than 2^31 bytes together, and
either none is empty or `&v[0]` is tolerated for empty vectors, every rank gets the list whose `j`-th entry
is rank `j`'s container.  What is missing: `all_gather_violated`, `all_gather_empty_violated`. -/
theorem all_gather_partial (ci : Codec Int) (c : Codec α) (lax : Bool) (N : Nat) (vals : Nat → List α)
    (h : lax = true ∨ (0 < N ∧ ∀ r < N, vals r ≠ []))
    (hsz : ((List.range N).map vals).flatten.length * c.sz < 2 ^ 31) :
    allGatherv ci c lax N vals = .ok ((List.range N).map vals) := by
  have hsum : (sizes c ((List.range N).map vals)).sum < 2 ^ 31 := by rw [sizes_sum]; exact hsz
  have hle : ∀ v ∈ (List.range N).map vals, v.length * c.sz < 2 ^ 31 := by
    intro v hv
    exact lt_of_le_of_lt (List.le_sum_of_mem (List.mem_map.2 ⟨v, hv, rfl⟩)) hsum
  unfold allGatherv
  have hg : allGather ci N (fun r => toInt ((vals r).length * c.sz)) =
      .ok ((sizes c ((List.range N).map vals)).map (Nat.cast : Nat → Int)) := by
    unfold allGather
    congr 1
    have := read_bytes ci ((List.range N).map fun r => toInt ((vals r).length * c.sz))
    rw [List.length_map, List.length_range] at this
    unfold Codec.bytes at this
    rw [this, sizes, List.map_map, List.map_map]
    refine List.map_congr_left fun r hr => ?_
    exact toInt_small (hle (vals r) (List.mem_map.2 ⟨r, hr, rfl⟩))
  obtain ⟨ps, h1, h2⟩ := partialSum_all 0 (sizes c ((List.range N).map vals)) (by omega)
  have h2' : (0 : Int) :: ps = ((offs 0 (sizes c ((List.range N).map vals))) ++
      [0 + (sizes c ((List.range N).map vals)).sum]).map (Nat.cast : Nat → Int) := h2
  have h1' : partialSum 0 ((sizes c ((List.range N).map vals)).map (Nat.cast : Nat → Int)) = .ok ps := h1
  rw [hg, Outcome.bind_ok, h1', Outcome.bind_ok]
  simp only [h2']
  have hn : elems c (List.getLast (((offs 0 (sizes c ((List.range N).map vals))) ++
      [0 + (sizes c ((List.range N).map vals)).sum]).map (Nat.cast : Nat → Int)) (by simp)) =
      ((List.range N).map vals).flatten.length := by
    rw [List.getLast_map, List.getLast_concat, Nat.zero_add, sizes_sum, elems_small c hsz]
  rw [hn]
  have ha : ∀ r ∈ List.range N, addr lax (vals r) = .ok () := by
    intro r hr
    rcases h with rfl | h
    · exact addr_lax _
    · exact addr_nonempty _ (h.2 r (List.mem_range.1 hr))
  rw [mapO_ok (g := fun _ => ()) ha, Outcome.bind_ok]
  have ha2 : addr lax (List.range ((List.range N).map vals).flatten.length) = .ok () := by
    rcases h with rfl | h
    · exact addr_lax _
    · refine addr_nonempty _ ?_
      rw [Ne, List.range_eq_nil, List.length_eq_zero_iff, List.flatten_eq_nil_iff]
      intro hall
      exact h.2 0 h.1 (hall _ (List.mem_map.2 ⟨0, List.mem_range.2 h.1, rfl⟩))
  rw [ha2, Outcome.bind_ok]
  have hpieces := allgatherv_pieces c ((List.range N).map vals) []
    (List.replicate (((List.range N).map vals).flatten.length * c.sz) 0)
    ([((0 + (sizes c ((List.range N).map vals)).sum : Nat) : Int)]) (by simp)
  simp only [List.nil_append, List.length_nil] at hpieces
  rw [List.map_append]
  simp only [List.map_cons, List.map_nil]
  have hmm : ((List.range N).map fun r => c.bytes (vals r)) = ((List.range N).map vals).map c.bytes := by
    rw [List.map_map]; rfl
  rw [hmm, hpieces, Outcome.bind_ok]
  have hd : List.drop (((List.range N).map vals).flatten.length * c.sz)
      (List.replicate (((List.range N).map vals).flatten.length * c.sz) (0 : Byte)) = [] := by
    simp
  rw [hd, List.append_nil, read_bytes]
  have hk : ((sizes c ((List.range N).map vals)).map (Nat.cast : Nat → Int)).map (elems c) =
      ((List.range N).map vals).map List.length := by
    rw [sizes, List.map_map, List.map_map]
    refine List.map_congr_left fun v hv => ?_
    exact elems_small c (hle v hv)
  rw [hk, distribute_pieces]

/-- **C49 is violated**, all_gather: containers with 2^31 bytes or more together (each of them less) make a
sum of `int`s overflow. -/
theorem all_gather_violated (ci : Codec Int) (c : Codec α) (lax : Bool) (N : Nat) (vals : Nat → List α)
    (hle : ∀ r < N, (vals r).length * c.sz < 2 ^ 31)
    (hsz : 2 ^ 31 ≤ ((List.range N).map vals).flatten.length * c.sz) :
    allGatherv ci c lax N vals = .ub := by
  unfold allGatherv
  have hg : allGather ci N (fun r => toInt ((vals r).length * c.sz)) =
      .ok ((sizes c ((List.range N).map vals)).map (Nat.cast : Nat → Int)) := by
    unfold allGather
    congr 1
    have := read_bytes ci ((List.range N).map fun r => toInt ((vals r).length * c.sz))
    rw [List.length_map, List.length_range] at this
    unfold Codec.bytes at this
    rw [this, sizes, List.map_map, List.map_map]
    refine List.map_congr_left fun r hr => ?_
    exact toInt_small (hle r (List.mem_range.1 hr))
  have hu := partialSum_ub 0 (sizes c ((List.range N).map vals)) (by decide) (by
    rw [sizes_sum, Nat.zero_add]; exact hsz)
  have hu' : partialSum 0 ((sizes c ((List.range N).map vals)).map (Nat.cast : Nat → Int)) = .ub := hu
  rw [hg, Outcome.bind_ok, hu']
  rfl

/-- **C49 is violated**, all_gather: a rank that passes an empty container evaluates `&sendbuf[0]`, which
is undefined by the C++ standard. -/
theorem all_gather_empty_violated (ci : Codec Int) (c : Codec α) (N : Nat) (vals : Nat → List α)
    (hsz : ((List.range N).map vals).flatten.length * c.sz < 2 ^ 31) (he : ∃ r < N, vals r = []) :
    allGatherv ci c false N vals = .ub := by
  have hsum : (sizes c ((List.range N).map vals)).sum < 2 ^ 31 := by rw [sizes_sum]; exact hsz
  have hle : ∀ v ∈ (List.range N).map vals, v.length * c.sz < 2 ^ 31 := by
    intro v hv
    exact lt_of_le_of_lt (List.le_sum_of_mem (List.mem_map.2 ⟨v, hv, rfl⟩)) hsum
  unfold allGatherv
  have hg : allGather ci N (fun r => toInt ((vals r).length * c.sz)) =
      .ok ((sizes c ((List.range N).map vals)).map (Nat.cast : Nat → Int)) := by
    unfold allGather
    congr 1
    have := read_bytes ci ((List.range N).map fun r => toInt ((vals r).length * c.sz))
    rw [List.length_map, List.length_range] at this
    unfold Codec.bytes at this
    rw [this, sizes, List.map_map, List.map_map]
    refine List.map_congr_left fun r hr => ?_
    exact toInt_small (hle (vals r) (List.mem_map.2 ⟨r, hr, rfl⟩))
  obtain ⟨ps, h1, -⟩ := partialSum_all 0 (sizes c ((List.range N).map vals)) (by omega)
  have h1' : partialSum 0 ((sizes c ((List.range N).map vals)).map (Nat.cast : Nat → Int)) = .ok ps := h1
  rw [hg, Outcome.bind_ok, h1', Outcome.bind_ok]
  simp only
  rw [mapO_ub (g := fun _ => ())]
  · rfl
  · intro r _
    by_cases hr : vals r = []
    · right; rw [hr]; rfl
    · left; exact addr_nonempty _ hr
  · obtain ⟨r, hr, hre⟩ := he
    exact ⟨r, List.mem_range.2 hr, by rw [hre]; rfl⟩

/-- **C49**, all_to_all: rank `i` gets at position `j` what rank `j` has at position `i`. -/
theorem all_to_all (c : Codec α) (lax : Bool) (N : Nat) (vals : Nat → List α)
    (hlen : ∀ r < N, (vals r).length = N) :
    ∃ out, allToAll c lax N vals = .ok out ∧ out.length = N ∧
      ∀ i (hi : i < N), ∃ row, out[i]? = some row ∧ row.length = N ∧
        ∀ j < N, row[j]? = (vals j)[i]? := by
  unfold allToAll
  rw [if_neg]
  swap
  · rw [Bool.not_eq_false, List.all_eq_true]
    intro r hr
    simpa using hlen r (List.mem_range.1 hr)
  rcases Nat.eq_zero_or_pos N with rfl | hN
  · exact ⟨[], rfl, rfl, fun i hi => absurd hi (Nat.not_lt_zero i)⟩
  have ha : ∀ r ∈ List.range N, addr lax (vals r) = .ok () := by
    intro r hr
    refine addr_nonempty _ ?_
    intro e
    have := hlen r (List.mem_range.1 hr)
    rw [e] at this
    simp at this
    omega
  rw [mapO_ok (g := fun _ => ()) ha, Outcome.bind_ok]
  simp only [Nat.div_self hN, Nat.one_mul]
  have hs : ∀ i < N, ∀ j ∈ List.range N, slice (c.bytes (vals j)) (i * c.sz) c.sz =
      .ok (((c.bytes (vals j)).drop (i * c.sz)).take c.sz) := by
    intro i hi j hj
    rw [List.mem_range] at hj
    rw [slice, if_pos]
    rw [bytes_length, hlen j hj]
    calc i * c.sz + c.sz = (i + 1) * c.sz := by ring
      _ ≤ N * c.sz := Nat.mul_le_mul_right _ hi
  have hrow : ∀ i ∈ List.range N,
      ((mapO (fun j => slice (c.bytes (vals j)) (i * c.sz) c.sz) (List.range N)).map
        fun parts => c.read N parts.flatten) = .ok ((List.range N).filterMap fun j => (vals j)[i]?) := by
    intro i hi
    rw [List.mem_range] at hi
    rw [mapO_ok (hs i hi), Outcome.map_ok]
    congr 1
    have hlen' : ((List.range N).filterMap fun j => (vals j)[i]?).length = N := by
      rw [List.length_filterMap_eq_countP]
      rw [List.countP_eq_length.2, List.length_range]
      intro j hj
      rw [List.mem_range] at hj
      rw [List.getElem?_eq_getElem (by rw [hlen j hj]; exact hi)]
      rfl
    have hb : (List.map (fun j => List.take c.sz (List.drop (i * c.sz) (c.bytes (vals j))))
        (List.range N)).flatten = c.bytes ((List.range N).filterMap fun j => (vals j)[i]?) := by
      have : ∀ l : List Nat, (∀ j ∈ l, j < N) →
          (List.map (fun j => List.take c.sz (List.drop (i * c.sz) (c.bytes (vals j)))) l).flatten =
          c.bytes (l.filterMap fun j => (vals j)[i]?) := by
        intro l hl
        induction l with
        | nil => rfl
        | cons j l ih =>
          have hj := hl j (by simp)
          have hij : i < (vals j).length := by rw [hlen j hj]; exact hi
          rw [List.map_cons, List.flatten_cons, ih fun k hk => hl k (by simp [hk]),
            bytes_slice c (vals j) i hij,
            List.filterMap_cons_some (f := fun j => (vals j)[i]?) (b := (vals j)[i])
              (List.getElem?_eq_getElem hij)]
          rfl
      exact this _ fun j hj => List.mem_range.1 hj
    rw [hb]
    have hrd := read_bytes c ((List.range N).filterMap fun j => (vals j)[i]?)
    rw [hlen'] at hrd
    exact hrd
  rw [mapO_ok hrow]
  refine ⟨_, rfl, by simp, ?_⟩
  intro i hi
  refine ⟨_, by rw [List.getElem?_map, List.getElem?_range hi]; rfl, ?_, ?_⟩
  · rw [List.length_filterMap_eq_countP, List.countP_eq_length.2, List.length_range]
    intro j hj
    rw [List.mem_range] at hj
    rw [List.getElem?_eq_getElem (by rw [hlen j hj]; exact hi)]
    rfl
  · intro j hj
    have : ((List.range N).filterMap fun j => (vals j)[i]?).map some =
        (List.range N).map fun j => (vals j)[i]? := by
      have : ∀ l : List Nat, (∀ j ∈ l, j < N) →
          (l.filterMap fun j => (vals j)[i]?).map some = l.map fun j => (vals j)[i]? := by
        intro l hl
        induction l with
        | nil => rfl
        | cons j l ih =>
          have hj := hl j (by simp)
          have hij : i < (vals j).length := by rw [hlen j hj]; exact hi
          rw [List.filterMap_cons_some (f := fun j => (vals j)[i]?) (b := (vals j)[i])
              (List.getElem?_eq_getElem hij), List.map_cons, List.map_cons,
            ih fun k hk => hl k (by simp [hk]), List.getElem?_eq_getElem hij]
      exact this _ fun j hj => List.mem_range.1 hj
    have h2 := congrArg (fun l => l[j]?) this
    simp only [List.getElem?_map, List.getElem?_range hj, Option.map_some] at h2
    cases hx : ((List.range N).filterMap fun j => (vals j)[i]?)[j]? with
    | none => rw [hx] at h2; cases h2
    | some a =>
      rw [hx] at h2
      simpa using h2

example : ∃ out, allToAll byteCodec true 2 (fun r => [[1, 2], [3, 4]].getD r []) = .ok out ∧ out.length = 2 := by
  obtain ⟨out, h1, h2, _⟩ := all_to_all byteCodec true 2 (fun r => [[1, 2], [3, 4]].getD r []) (by decide)
  exact ⟨out, h1, h2⟩

/-- **C49**, all_gather of scalars. -/
theorem all_gather_scalars (c : Codec α) (N : Nat) (vals : Nat → α) :
    allGather c N vals = .ok ((List.range N).map vals) := by
  unfold allGather
  congr 1
  have := read_bytes c ((List.range N).map vals)
  rw [List.length_map, List.length_range] at this
  exact this

/-- The bytes of a number. -/
def byteCodec : Codec Byte where
  sz := 1
  enc b := [b]
  dec l := l.headD 0
  pos := by decide
  len _ := rfl
  dec_enc _ := rfl

/-- Two bytes. -/
def pairCodec : Codec (Byte × Byte) where
  sz := 2
  enc b := [b.1, b.2]
  dec l := (l.headD 0, l.tail.headD 0)
  pos := by decide
  len _ := rfl
  dec_enc _ := rfl

/-- Three ranks, one of them with nothing. -/
example (ci : Codec Int) :
    scatterv ci pairCodec true 3 1 (fun _ => [[(1, 2), (3, 4)], [], [(5, 6)]]) =
      .ok [[(1, 2), (3, 4)], [], [(5, 6)]] :=
  scatterv_partial ci pairCodec 3 1 _ (by decide) rfl (by decide)

example (ci : Codec Int) :
    allGatherv ci pairCodec true 3 (fun r => List.replicate r (7, 8)) =
      .ok [[], [(7, 8)], [(7, 8), (7, 8)]] :=
  all_gather_partial ci pairCodec true 3 _ (Or.inl rfl) (by decide)

example : ∃ vals : Nat → List Byte, (∀ r < 2, (vals r).length * byteCodec.sz < 2 ^ 31) ∧
    2 ^ 31 ≤ ((List.range 2).map vals).flatten.length * byteCodec.sz := by
  obtain ⟨n, hn⟩ : ∃ n : Nat, n = 2 ^ 30 := ⟨_, rfl⟩
  refine ⟨fun _ => List.replicate n 0, ?_, ?_⟩
  · intro r _
    rw [List.length_replicate]
    show n * 1 < 2 ^ 31
    omega
  · have h2 : List.range 2 = [0, 1] := rfl
    rw [h2]
    simp only [List.map_cons, List.map_nil, List.flatten_cons, List.flatten_nil, List.length_append,
      List.length_replicate, List.length_nil]
    show 2 ^ 31 ≤ (n + (n + 0)) * 1
    omega

example : ∀ r < 2, ([[(1 : Byte), 2], [3, 4]].getD r []).length = 2 := by decide

/-! ## Receiving -/

/-- At most one message of a named source can be picked. -/
theorem eligible_unique {source : Nat} {tag : Option Nat} {box : List Msg} {i k : Nat}
    (hi : eligible (some source) tag box i) (hk : eligible (some source) tag box k) : i = k := by
  obtain ⟨m, h1, h2, h3⟩ := hi
  obtain ⟨m', h1', h2', h3'⟩ := hk
  have hs : m.source = source := by
    simp only [matchesMsg, Bool.and_eq_true, Bool.or_eq_true, beq_iff_eq, reduceCtorEq, false_or,
      Option.some.injEq] at h2
    exact h2.1.symm
  have hs' : m'.source = source := by
    simp only [matchesMsg, Bool.and_eq_true, Bool.or_eq_true, beq_iff_eq, reduceCtorEq, false_or,
      Option.some.injEq] at h2'
    exact h2'.1.symm
  rcases Nat.lt_trichotomy i k with h | h | h
  · have := h3' i m h h1 (by rw [hs, hs'])
    rw [h2] at this
    cases this
  · exact h
  · have := h3 k m' h h1' (by rw [hs, hs'])
    rw [h2'] at this
    cases this

/-- What could be picked can still be picked when more has arrived. -/
theorem eligible_append {source tag : Option Nat} {box arrived : List Msg} {i : Nat}
    (hi : eligible source tag box i) : eligible source tag (box ++ arrived) i := by
  obtain ⟨m, h1, h2, h3⟩ := hi
  have hlt : i < box.length := by
    by_contra h
    rw [List.getElem?_eq_none (by omega)] at h1
    cases h1
  refine ⟨m, by rw [List.getElem?_append_left hlt]; exact h1, h2, fun j m' hj hm' => ?_⟩
  rw [List.getElem?_append_left (by omega)] at hm'
  exact h3 j m' hj hm'

/-- **C50, as far as it holds.** From a named source, a receive returns one complete message: the first that
matches, of the probed length, whatever arrives in between.  What is missing: `recv_violated`. -/
theorem recv_partial {source : Nat} {tag : Option Nat} {box arrived : List Msg} {r : Outcome (List Byte)}
    {k : Nat} (h : Recv (some source) tag box arrived r k) :
    ∃ m, box[k]? = some m ∧ m.source = source ∧ (∀ t, tag = some t → m.tag = t) ∧ r = .ok m.body ∧
      ∀ j m', j < k → box[j]? = some m' → matchesMsg (some source) tag m' = false := by
  have key : ∀ i m m' k, eligible (some source) tag box i → box[i]? = some m →
      eligible (some source) tag (box ++ arrived) k → (box ++ arrived)[k]? = some m' → k = i ∧ m' = m := by
    intro i m m' k hi hm hk hm'
    have e := eligible_unique (eligible_append (arrived := arrived) hi) hk
    subst e
    have hlt : i < box.length := by
      by_contra hh
      rw [List.getElem?_eq_none (by omega)] at hm
      cases hm
    rw [List.getElem?_append_left hlt, hm] at hm'
    exact ⟨rfl, (Option.some.inj hm').symm⟩
  cases h with
  | fits i k m m' hi hm hk hm' hlen =>
    obtain ⟨rfl, rfl⟩ := key i m m' k hi hm hk hm'
    obtain ⟨m₀, g1, g2, g3⟩ := hi
    rw [hm] at g1
    simp only [Option.some.injEq] at g1
    subst g1
    have g2' := g2
    simp only [matchesMsg, Bool.and_eq_true, Bool.or_eq_true, beq_iff_eq, reduceCtorEq, false_or,
      Option.some.injEq] at g2
    refine ⟨m', hm, g2.1.symm, ?_, by simp, ?_⟩
    · intro t ht
      rcases g2.2 with h1 | h1
      · rw [h1] at ht; cases ht
      · rw [h1] at ht; exact Option.some.inj ht
    · intro j m'' hj hm''
      by_cases hs : m''.source = m'.source
      · exact g3 j m'' hj hm'' hs
      · simp only [matchesMsg, Bool.and_eq_false_iff]
        left
        rw [g2.1]
        simp [Ne.symm hs]
  | truncated i k m m' hi hm hk hm' hlen =>
    obtain ⟨rfl, rfl⟩ := key i m m' k hi hm hk hm'
    exact absurd hlen (lt_irrefl _)

/-- **C50, as far as it holds**, any source: if all messages that match are of one length, the receive
returns one of them complete. -/
theorem recv_same_length_partial {source tag : Option Nat} {box arrived : List Msg}
    {r : Outcome (List Byte)} {k n : Nat}
    (hn : ∀ m ∈ box ++ arrived, matchesMsg source tag m = true → m.body.length = n)
    (h : Recv source tag box arrived r k) :
    ∃ m, (box ++ arrived)[k]? = some m ∧ matchesMsg source tag m = true ∧ r = .ok m.body := by
  have key : ∀ i m m' k, eligible source tag box i → box[i]? = some m →
      eligible source tag (box ++ arrived) k → (box ++ arrived)[k]? = some m' →
      m.body.length = n ∧ m'.body.length = n ∧ matchesMsg source tag m' = true := by
    intro i m m' k hi hm hk hm'
    obtain ⟨m₀, h1, h2, -⟩ := hi
    obtain ⟨m₁, h1', h2', -⟩ := hk
    rw [hm] at h1
    rw [hm'] at h1'
    cases h1
    cases h1'
    exact ⟨hn m (List.mem_append_left _ (List.mem_of_getElem? hm)) h2,
      hn m' (List.mem_of_getElem? hm') h2', h2'⟩
  cases h with
  | fits i k m m' hi hm hk hm' hlen =>
    obtain ⟨h1, h2, h3⟩ := key i m m' k hi hm hk hm'
    exact ⟨m', hm', h3, by rw [h1, h2]; simp⟩
  | truncated i k m m' hi hm hk hm' hlen =>
    obtain ⟨h1, h2, h3⟩ := key i m m' k hi hm hk hm'
    omega

/-- **C50 is violated** by receiving from any source: the message received need not be the one probed.  With
a message of two bytes from rank 1 and one of one byte from rank 2, the latter may be returned with a byte of
padding, and the former may be an error. -/
theorem recv_violated :
    Recv none none [⟨1, 0, [5, 6]⟩, ⟨2, 0, [7]⟩] [] (.ok [7, 0]) 1 ∧
      Recv none none [⟨1, 0, [5, 6]⟩, ⟨2, 0, [7]⟩] [] (.throws .other) 0 := by
  have e0 : eligible none none [⟨1, 0, [5, 6]⟩, ⟨2, 0, [7]⟩] 0 :=
    ⟨_, rfl, rfl, fun j m' hj => absurd hj (Nat.not_lt_zero j)⟩
  have e1 : eligible none none [⟨1, 0, [5, 6]⟩, ⟨2, 0, [7]⟩] 1 := by
    refine ⟨_, rfl, rfl, fun j m' hj hm' hs => ?_⟩
    have : j = 0 := by omega
    subst this
    simp only [List.getElem?_cons_zero, Option.some.injEq] at hm'
    subst hm'
    simp at hs
  exact ⟨Recv.fits 0 1 _ _ e0 rfl e1 rfl (by decide), Recv.truncated 1 0 _ _ e1 rfl e0 rfl (by decide)⟩

/-- A receive from a named source, with another message before it. -/
example : Recv (some 2) none [⟨1, 0, [5, 6]⟩, ⟨2, 0, [7]⟩] [⟨2, 1, [8, 9]⟩] (.ok [7]) 1 := by
  have e1 : eligible (some 2) none [⟨1, 0, [5, 6]⟩, ⟨2, 0, [7]⟩] 1 := by
    refine ⟨_, rfl, rfl, fun j m' hj hm' hs => ?_⟩
    have : j = 0 := by omega
    subst this
    simp only [List.getElem?_cons_zero, Option.some.injEq] at hm'
    subst hm'
    simp at hs
  exact Recv.fits 1 1 _ _ e1 rfl (eligible_append e1) rfl le_rfl

/-- `recv_partial`, `recv_same_length_partial`: the first message of the named source is returned, whole. -/
example (r : Outcome (List Byte)) (k : Nat)
    (h : Recv (some 2) none [⟨1, 0, [5, 6]⟩, ⟨2, 0, [7]⟩] [⟨2, 1, [8, 9]⟩] r k) : r = .ok [7] := by
  obtain ⟨m, h1, h2, _, h3, _⟩ := recv_partial h
  match k with
  | 0 => simp only [List.getElem?_cons_zero, Option.some.injEq] at h1; subst h1; cases h2
  | 1 => simp only [List.getElem?_cons_succ, List.getElem?_cons_zero, Option.some.injEq] at h1; subst h1; exact h3
  | (n + 2) => simp at h1
example (r : Outcome (List Byte)) (k : Nat)
    (h : Recv none none [⟨1, 0, [5, 6]⟩, ⟨2, 0, [7, 8]⟩] [⟨3, 1, [8, 9]⟩] r k) :
    ∃ m, ([⟨1, 0, [5, 6]⟩, ⟨2, 0, [7, 8]⟩] ++ [⟨3, 1, [8, 9]⟩] : List Msg)[k]? = some m ∧ r = .ok m.body := by
  obtain ⟨m, h1, _, h2⟩ := recv_same_length_partial (n := 2) (by
    intro m hm _
    simp only [List.cons_append, List.nil_append, List.mem_cons, List.not_mem_nil, or_false] at hm
    rcases hm with rfl | rfl | rfl <;> rfl) h
  exact ⟨m, h1, h2⟩

/-- **C49** A scatter of any other number of values than there are ranks is refused. -/
theorem scatter_throws (c : Codec α) (lax : Bool) (N root : Nat) (vals : Nat → List α)
    (h : (vals root).length ≠ N) : scatter c lax N root vals = .throws .invalidArgument := by
  unfold scatter
  rw [if_pos h]

/-- **C49** So is an exchange to which some rank brings another number of values than there are ranks. -/
theorem all_to_all_throws (c : Codec α) (lax : Bool) (N : Nat) (vals : Nat → List α)
    (h : ∃ r < N, (vals r).length ≠ N) : allToAll c lax N vals = .throws .invalidArgument := by
  obtain ⟨r, hr, hn⟩ := h
  unfold allToAll
  rw [if_pos]
  rw [← Bool.not_eq_true, List.all_eq_true]
  intro hh
  exact hn (by simpa using hh r (List.mem_range.2 hr))

example : scatter byteCodec true 3 1 (fun r => if r = 1 then [4, 5] else []) = .throws .invalidArgument :=
  scatter_throws _ _ _ _ _ (by decide)
example : allToAll byteCodec false 2 (fun r => if r = 0 then [4, 5] else [6]) = .throws .invalidArgument :=
  all_to_all_throws _ _ _ _ ⟨1, by decide, by decide⟩

end Verif.Mpi
