import Verif.Spec.Partdom
import Verif.Props.Hyperslab
import Verif.Props.NdOps
import Mathlib.Tactic.FinCases
import Mathlib.Tactic.Ring
import Mathlib.Tactic.Linarith
import Mathlib.Algebra.CharZero.Defs

/-!
# C111: the program that decomposes a domain
-/

namespace Verif.Partdom
open Verif Verif.Nd Verif.Par Verif.H5

variable {K : Type}

/-- Midpoints with any factor, in any rank. -/
private theorem midpointWith {V : Type} [Add V] [Mul V] (half : V) {R : Nat} {A : Arr R V} {s : Ix R} {f : Ix R → V} (hA : Denotes A s f)
    (hb : ∀ b, s b < 2 ^ 64) (a : Fin R) (hs : 1 ≤ s a) :
    ∃ M, midpoint half a A = .ok M ∧
      Denotes M (Function.update s a (s a - 1)) (fun i => (f i + f (Function.update i a (i a + 1))) * half) := by
  obtain ⟨U, h1, d1⟩ := dropFirst_denotes hA hb a 1 0 (by omega)
  obtain ⟨L, h2, d2⟩ := dropFinal_denotes hA hb a 1 (by omega)
  obtain ⟨D, h3, d3⟩ := binaryOp_denotes d2 d1 (· + ·)
  refine ⟨_, ?_, d3.map (· * half)⟩
  unfold midpoint
  rw [h2, Outcome.bind_ok, h1, Outcome.bind_ok, h3, Outcome.map_ok]

/-- A block: unit steps, at least one cell on every axis, far from the end of the integers. -/
private structure Block (N : Nat) (p : AccessPattern 3) : Prop where
  jumps : ∀ a, p.jumps a = 1
  lt : ∀ a, p.start a < p.final a
  le : ∀ a, p.final a ≤ N
  small : N < 2 ^ 31

private theorem Block.regular {N : Nat} {p : AccessPattern 3} (h : Block N p) : Regular p := fun a => by
  have := h.jumps a; have := h.lt a; have := h.le a; have := h.small
  omega

private theorem Block.shape {N : Nat} {p : AccessPattern 3} (h : Block N p) (a : Fin 3) : p.shape a = p.final a - p.start a := by
  have h1 := h.jumps a; have h2 := h.lt a; have h3 := h.le a; have h4 := h.small
  unfold AccessPattern.shape
  rw [h1, wsub_eq (show p.start a ≤ p.final a by omega) (by omega),
    wsub_eq (show 1 ≤ p.final a - p.start a by omega) (by omega), Nat.div_one, w_eq (by omega)]
  omega

private theorem Block.region {N : Nat} {p : AccessPattern 3} (h : Block N p) {i : Ix 3} :
    InRegion p i ↔ ∀ a, p.start a ≤ i a ∧ i a < p.final a := by
  unfold InRegion
  refine forall_congr' fun a => ?_
  rw [h.jumps a]
  constructor
  · rintro ⟨k, hk, hl⟩; exact ⟨by omega, hl⟩
  · rintro ⟨h1, h2⟩; exact ⟨i a - p.start a, by omega, h2⟩

private theorem Block.vertices [Field K] {N : Nat} {p : AccessPattern 3} (h : Block N p) :
    ∃ A, vertexArray p = .ok A ∧
      Denotes A (fun a => p.final a - p.start a + 1) (fun i a => ((p.start a + i a : Nat) : K)) := by
  set reg : AccessPattern 3 := { p with final := fun a => w (p.final a + 1) } with hreg
  have hw : ∀ a, w (p.final a + 1) = p.final a + 1 := fun a => w_eq (by have := h.le a; have := h.small; omega)
  have hs : ∀ a, reg.shape a = p.final a - p.start a + 1 := fun a => by
    have h1 := h.jumps a; have h2 := h.lt a; have h3 := h.le a; have h4 := h.small
    unfold AccessPattern.shape
    show w (wsub (wsub (w (p.final a + 1)) (p.start a)) 1 / p.jumps a + 1) = _
    rw [hw, h1, wsub_eq (show p.start a ≤ p.final a + 1 by omega) (by omega),
      wsub_eq (show 1 ≤ p.final a + 1 - p.start a by omega) (by omega), Nat.div_one, w_eq (by omega)]
    omega
  have hj : reg.JumpsOk = true := by
    unfold AccessPattern.JumpsOk
    simp only [List.all_eq_true, decide_eq_true_eq]
    exact fun a _ => by show p.jumps a ≠ 0; rw [h.jumps a]; omega
  refine ⟨_, by unfold vertexArray; rw [if_neg (by simp [← hreg, hj])], funext hs, fun i hi => ?_⟩
  show Outcome.ok _ = _
  refine congrArg Outcome.ok (funext fun a => ?_)
  refine congrArg (Nat.cast (R := K)) ?_
  show w (p.start a + w (p.jumps a * i a)) = _
  have h1 := h.jumps a; have h2 := h.lt a; have h3 := h.le a; have h4 := h.small; have h5 := hi a
  simp only at h5
  rw [h1, Nat.one_mul, w_eq (show i a < 2 ^ 64 by omega), w_eq (by omega)]

private theorem Block.centers [Field K] [CharZero K] {N : Nat} {p : AccessPattern 3} (h : Block N p) {A : Arr 3 (Fin 3 → K)}
    (hA : Denotes A (fun a => p.final a - p.start a + 1) (fun i a => ((p.start a + i a : Nat) : K))) :
    ∃ C, centerArray A = .ok C ∧ Denotes C p.shape (fun i => center fun a => p.start a + i a) := by
  have hb : ∀ a, p.final a - p.start a + 1 < 2 ^ 64 := fun a => by have := h.le a; have := h.small; omega
  obtain ⟨M, e0, h0⟩ := midpointWith (fun _ => 1 / 2) hA hb 0 (by omega)
  obtain ⟨M1, e1, h1⟩ := midpointWith (fun _ => 1 / 2) h0 (fun b => by
    have := hb b
    rcases eq_or_ne b 0 with rfl | hb
    · simp only [Function.update_self]; omega
    · rw [Function.update_of_ne hb]; exact this) 1 (by rw [Function.update_of_ne (by decide)]; omega)
  obtain ⟨M2, e2, h2⟩ := midpointWith (fun _ => 1 / 2) h1 (fun b => by
    have h0 := hb b
    fin_cases b <;> simp [Function.update] at h0 ⊢ <;> omega) 2
      (by rw [Function.update_of_ne (by decide), Function.update_of_ne (by decide)]; omega)
  refine ⟨M2, by unfold centerArray; erw [e0, Outcome.bind_ok, e1, Outcome.bind_ok, e2], h2.congr ?_ fun i _ => ?_⟩
  · funext a
    rw [h.shape]
    fin_cases a <;> simp [Function.update]
  · funext a
    fin_cases a <;> simp [center, Function.update] <;> ring

private theorem elements_denotes {α : Type} {A : Arr 3 α} {s : Ix 3} {f : Ix 3 → α} (hA : Denotes A s f) (hp : ∀ a, 0 < s a)
    (hb : ∀ a, s a < 2 ^ 64) : ∃ l : List (Ix 3), elements A = .ok (l.map f) ∧ (∀ i, i ∈ l ↔ InShape s i) ∧ l.Pairwise RowMajor := by
  obtain ⟨l, e, h1, h2⟩ := indexes_shape_sorted (R := 2) (Or.inl hp) hb
  refine ⟨l, ?_, h1, h2⟩
  unfold elements
  rw [hA.1, e, Outcome.bind_ok, readAll_ok l fun i hi => hA.2 i ((h1 i).1 hi)]

private theorem printed_denotes {α : Type} {A : Arr 3 (Arr 3 α)} {bs : Ix 3} (hs : A.shape = bs) {l : List (Ix 3)}
    (e : (makeAccessPattern bs).indexes = .ok l) (h1 : ∀ b, b ∈ l ↔ InShape bs b)
    (L : Ix 3 → List α) (hL : ∀ b, InShape bs b → ∃ B, A.get b = .ok B ∧ elements B = .ok (L b)) :
    printed A = .ok (l.map fun b => (b, L b)) := by
  unfold printed
  rw [hs, e, Outcome.bind_ok, collect_ok _ (fun b => (b, L b)) l fun b hm => ?_]
  obtain ⟨B, g1, g2⟩ := hL b ((h1 b).1 hm)
  rw [g1, Outcome.bind_ok, g2, Outcome.map_ok]

private theorem rowMajor_irrefl (i : Ix 3) : ¬ RowMajor i i := fun ⟨_, _, h⟩ => lt_irrefl _ h

private theorem nodup_of_rowMajor {l : List (Ix 3)} (h : l.Pairwise RowMajor) : l.Nodup :=
  h.imp fun {a b} hab e => by subst e; exact rowMajor_irrefl _ hab

private theorem center_injective [Field K] [CharZero K] : Function.Injective (center (K := K)) := by
  intro c d h
  funext a
  have := congrFun h a
  unfold center at this
  exact Nat.cast_injective (add_right_cancel this)

private theorem blocks_spec (N : Nat) (hN : N < 2 ^ 31) (bs : Ix 3) (hb0 : ∀ a, 0 < bs a) (hle : ∀ a, bs a ≤ N) :
    ∃ B blk, createAccessPatternArray (fun _ => N) bs = .ok B ∧ Denotes B bs blk ∧ (∀ n, InShape bs n → Block N (blk n)) ∧
      ∀ i, InShape (fun _ => N) i → ∃ n, (InShape bs n ∧ InRegion (blk n) i) ∧ ∀ m, InShape bs m → InRegion (blk m) i → m = n := by
  obtain ⟨B, blk, h1, h2, h3, h4, _⟩ := (block_regions (fun _ => N) bs (fun _ => hN) hb0
    (fun a => by have := hle a; omega)).1 hle
  refine ⟨B, blk, h1, h2, fun n hn => ?_, h3⟩
  have hj : ∀ a, (blk n).jumps a = 1 := by
    intro a
    have g := h2.2 n hn
    unfold createAccessPatternArray at h1
    obtain ⟨axes, _, rfl⟩ := Outcome.map_eq_ok.1 h1
    have hc : contains bs n = true := contains_eq.2 hn
    simp only [boundsCheck, hc, if_true, Outcome.ok.injEq] at g
    rw [← g]
  obtain ⟨hr, hin⟩ := h4 n hn
  refine ⟨hj, fun a => (hr a).1, fun a => ?_, hN⟩
  have := hin (fun b => (blk n).final b - 1) (fun b => ⟨(blk n).final b - 1 - (blk n).start b, by
    have := (hr b).1; rw [hj b]; beta_reduce; omega, by have := (hr b).1; beta_reduce; omega⟩) a
  simp only at this
  have := (hr a).1
  omega

/-- **C111.** The program divides the domain into as many blocks as there are processes.  If there are more
blocks than cells on some axis, it ends with an exception.  Otherwise it prints the same blocks, each once, with
their vertices and with their centres; the centres are those of all cells of the domain, each printed once for
one block; the vertices of a block are the corners of its cells, each once; and the file holds the first
coordinate of the centre at the cells of the first block and zero at all others. -/
theorem partdom [Field K] [CharZero K] (N procs : Nat) (hN : N ^ 3 < 2 ^ 31) (h0 : 0 < procs) (hb : procs < 2147395600) :
    ∃ bs : Ix 3, proposeBlockDecomposition 3 procs = .ok bs ∧ count bs = procs ∧
      ((∃ a, N < bs a) → run (K := K) N procs = .throws .logicError) ∧
      ((∀ a, bs a ≤ N) → ∃ o : Output K, run N procs = .ok o ∧
        o.centers.map Prod.fst = o.vertices.map Prod.fst ∧ (o.centers.map Prod.fst).Nodup ∧
        (∀ b, b ∈ o.centers.map Prod.fst ↔ InShape bs b) ∧
        (o.centers.flatMap Prod.snd).Nodup ∧
        (∀ x, x ∈ o.centers.flatMap Prod.snd ↔ ∃ c : Ix 3, InShape (fun _ => N) c ∧ x = center c) ∧
        (∀ b l, (b, l) ∈ o.vertices → l.Nodup ∧ ∀ v, v ∈ l ↔
          ∃ c m, (b, m) ∈ o.centers ∧ center c ∈ m ∧ IsCorner c v) ∧
        o.data.extent = (fun _ => N) ∧
        ∀ c, InShape (fun _ => N) c → 
          ((∃ m, ((fun _ => 0), m) ∈ o.centers ∧ center c ∈ m) → o.data.data c = (c 0 : K) + 1 / 2) ∧
          ((¬ ∃ m, ((fun _ => 0), m) ∈ o.centers ∧ center c ∈ m) → o.data.data c = 0)) := by
  obtain ⟨bs, e, hc⟩ := propose_partial 3 procs (by omega) (by omega) h0 hb
  have hN' : N < 2 ^ 31 := lt_of_le_of_lt (Nat.le_self_pow (by omega) N) hN
  have hb0 : ∀ a, 0 < bs a := by
    intro a
    by_contra hz
    have : count bs = 0 := Finset.prod_eq_zero (Finset.mem_univ a) (by omega)
    omega
  have hbs : ∀ a, bs a < 2 ^ 32 := fun a => by
    have := le_count hb0 a
    omega
  refine ⟨bs, e, hc, fun h => ?_, fun hle => ?_⟩
  · unfold run
    rw [e, Outcome.bind_ok, (block_regions (fun _ => N) bs (fun _ => hN') hb0 hbs).2 h]
    rfl
  · obtain ⟨B, blk, h1, h2, h3, h4⟩ := blocks_spec N hN' bs hb0 hle
    have hv := fun n (hn : InShape bs n) => (h3 n hn).vertices (K := K)
    haveI : Inhabited (Arr 3 (Fin 3 → K)) := ⟨promote (fun _ => 0) fun _ => 0⟩
    choose! V eV dV using hv
    have hcen := fun n (hn : InShape bs n) => (h3 n hn).centers (dV n hn)
    choose! C eC dC using hcen
    have hvl := fun n (hn : InShape bs n) => elements_denotes (dV n hn) (by simp)
      (fun a => by have := (h3 n hn).le a; beta_reduce; omega)
    choose! lv elv mlv slv using hvl
    have hcl := fun n (hn : InShape bs n) => elements_denotes (dC n hn)
      (fun a => by rw [(h3 n hn).shape]; have := (h3 n hn).lt a; omega)
      (fun a => by rw [(h3 n hn).shape]; have := (h3 n hn).le a; omega)
    choose! lc elc mlc slc using hcl
    obtain ⟨bl, ebl, p2, p3⟩ := indexes_shape_sorted (R := 2) (Or.inl hb0) (fun a => show bs a < 2 ^ 64 by have := hbs a; omega)
    have p1 := printed_denotes (A := ⟨B.shape, fun b => (B.get b).bind vertexArray⟩) h2.1 ebl p2
      (fun b => (lv b).map fun i a => (((blk b).start a + i a : Nat) : K))
      (fun b hb => ⟨V b, by simp only; rw [h2.2 b hb, Outcome.bind_ok, eV b hb], elv b hb⟩)
    have p1' := printed_denotes
      (A := ⟨B.shape, fun b => (((B.get b).bind vertexArray).bind centerArray : Outcome (Arr 3 (Fin 3 → K)))⟩) h2.1 ebl p2
      (fun b => (lc b).map fun i => center fun a => (blk b).start a + i a)
      (fun b hb => ⟨C b, by simp only; rw [h2.2 b hb, Outcome.bind_ok, eV b hb, Outcome.bind_ok, eC b hb], elc b hb⟩)
    have hz : InShape bs fun _ => 0 := hb0
    have hcount : count (blk fun _ => 0).shape < 2 ^ 31 := by
      refine lt_of_le_of_lt ?_ hN
      unfold count
      calc ∏ a, (blk fun _ => 0).shape a ≤ ∏ _a : Fin 3, N := Finset.prod_le_prod' fun a _ => by
            rw [(h3 _ hz).shape]; have := (h3 _ hz).le a; omega
        _ = N ^ 3 := by simp
    letI : Inhabited K := ⟨0⟩
    obtain ⟨X, eX, dX⟩ := evaluate_ok ((dC _ hz).map fun x => x 0) (Or.inl fun a => by
      rw [(h3 _ hz).shape]; have := (h3 _ hz).lt a; omega) hcount
    obtain ⟨D, eD, xD, aD, bD⟩ := write_region (⟨fun _ => N, fun _ => 0⟩ : Dataset 3 K) (blk fun _ => 0) (h3 _ hz).regular X _ dX
      (fun j hj => fun a => lt_of_lt_of_le (((h3 _ hz).region.1 hj) a).2 ((h3 _ hz).le a))
    -- the cells of a block
    have cells : ∀ b, InShape bs b → ∀ c : Ix 3, center (K := K) c ∈ ((lc b).map fun i => center fun a => (blk b).start a + i a) ↔
        InRegion (blk b) c := by
      intro b hb c
      rw [(h3 b hb).region, List.mem_map]
      constructor
      · rintro ⟨i, hi, e⟩ a
        have := center_injective e
        have h5 := (mlc b hb i).1 hi a
        rw [(h3 b hb).shape] at h5
        rw [← this]
        simp only
        omega
      · intro h
        refine ⟨fun a => c a - (blk b).start a, (mlc b hb _).2 fun a => ?_, congrArg center (funext fun a => ?_)⟩
        · rw [(h3 b hb).shape]; have := h a; beta_reduce; omega
        · have := h a; simp only; omega
    have isc : ∀ b, InShape bs b → ∀ x ∈ ((lc b).map fun i => center (K := K) fun a => (blk b).start a + i a), ∃ c, x = center c := by
      intro b hb x hx
      obtain ⟨i, _, rfl⟩ := List.mem_map.1 hx
      exact ⟨_, rfl⟩
    have mem : ∀ b m, (b, m) ∈ (bl.map fun b => (b, (lc b).map fun i => center (K := K) fun a => (blk b).start a + i a)) ↔
        InShape bs b ∧ m = (lc b).map fun i => center (K := K) fun a => (blk b).start a + i a := by
      intro b m
      rw [List.mem_map]
      constructor
      · rintro ⟨b', hb', e⟩
        obtain ⟨rfl, rfl⟩ := Prod.mk.inj e
        exact ⟨(p2 _).1 hb', rfl⟩
      · rintro ⟨hb, rfl⟩
        exact ⟨b, (p2 b).2 hb, rfl⟩
    have first : ∀ c, (∃ m, ((fun _ => 0), m) ∈ (bl.map fun b => (b, (lc b).map fun i => center (K := K) fun a => (blk b).start a + i a)) ∧
        center (K := K) c ∈ m) ↔ InRegion (blk fun _ => 0) c := by
      intro c
      rw [← cells _ hz]
      constructor
      · rintro ⟨m, hm, h⟩
        rw [((mem _ _).1 hm).2] at h
        exact h
      · exact fun h => ⟨_, (mem _ _).2 ⟨hz, rfl⟩, h⟩
    refine ⟨⟨bl.map fun b => (b, (lv b).map fun i a => (((blk b).start a + i a : Nat) : K)),
      bl.map fun b => (b, (lc b).map fun i => center fun a => (blk b).start a + i a), D⟩, ?_, ?_, ?_, fun b => ?_, ?_, fun x => ?_, fun b l hl => ?_, xD, fun c hc => ⟨fun h => ?_, fun h => ?_⟩⟩
    · unfold run
      rw [e, Outcome.bind_ok, h1, Outcome.bind_ok]
      simp only
      rw [p1, Outcome.bind_ok, p1', Outcome.bind_ok, h2.2 _ hz, Outcome.bind_ok, eV _ hz, Outcome.bind_ok, eC _ hz,
        Outcome.bind_ok, eX, Outcome.bind_ok, Outcome.bind_ok, eD, Outcome.map_ok]
    · simp only [List.map_map]
      rfl
    · simp only [List.map_map]
      refine List.Nodup.map (fun _ _ h => h) (nodup_of_rowMajor p3)
    · simp only [List.map_map]
      rw [← p2 b]
      simp
    · simp only [List.flatMap_map]
      rw [List.nodup_flatMap]
      refine ⟨fun b hb => List.Nodup.map (fun i j h => ?_) (nodup_of_rowMajor (slc b ((p2 b).1 hb))), ?_⟩
      · funext a
        exact Nat.add_left_cancel (congrFun (center_injective h) a)
      · refine List.Pairwise.imp_of_mem ?_ (nodup_of_rowMajor p3)
        intro b b' hb hb' hne x hx hx'
        obtain ⟨c, rfl⟩ := isc b ((p2 b).1 hb) x hx
        have g1 := (cells b ((p2 b).1 hb) c).1 hx
        have g2 := (cells b' ((p2 b').1 hb') c).1 hx'
        have hcN : InShape (fun _ => N) c := fun a =>
          lt_of_lt_of_le (((h3 _ ((p2 b).1 hb)).region.1 g1) a).2 ((h3 _ ((p2 b).1 hb)).le a)
        obtain ⟨n, _, hu⟩ := h4 c hcN
        exact hne ((hu b ((p2 b).1 hb) g1).trans (hu b' ((p2 b').1 hb') g2).symm)
    · simp only [List.flatMap_map, List.mem_flatMap]
      constructor
      · rintro ⟨b, hb, hx⟩
        have hb := (p2 b).1 hb
        obtain ⟨c, rfl⟩ := isc b hb x hx
        have g1 := (cells b hb c).1 hx
        exact ⟨c, fun a => lt_of_lt_of_le (((h3 _ hb).region.1 g1) a).2 ((h3 _ hb).le a), rfl⟩
      · rintro ⟨c, hc, rfl⟩
        obtain ⟨n, ⟨hn, hr⟩, _⟩ := h4 c hc
        exact ⟨n, (p2 n).2 hn, (cells n hn c).2 hr⟩
    · obtain ⟨b', hb', e'⟩ := List.mem_map.1 hl
      obtain ⟨rfl, rfl⟩ := Prod.mk.inj e'
      have hb := (p2 b').1 hb'
      refine ⟨List.Nodup.map (fun i j h => funext fun a => ?_) (nodup_of_rowMajor (slv b' hb)), fun v => ?_⟩
      · exact Nat.add_left_cancel (Nat.cast_injective (congrFun h a))
      · rw [List.mem_map]
        have hB := h3 b' hb
        constructor
        · rintro ⟨i, hi, rfl⟩
          have hi := (mlv b' hb i).1 hi
          refine ⟨fun a => if (blk b').start a + i a = (blk b').final a then (blk b').start a + i a - 1 else (blk b').start a + i a,
            _, (mem _ _).2 ⟨hb, rfl⟩, (cells b' hb _).2 (hB.region.2 fun a => ?_), fun a => ?_⟩
          · have h1 := hi a; have h2 := hB.lt a
            simp only at h1 ⊢
            split_ifs <;> omega
          · simp only
            have h2 := hB.lt a
            split_ifs with h
            · refine .inr ?_
              rw [h, ← Nat.cast_succ]
              refine congrArg _ ?_
              omega
            · exact .inl rfl
        · rintro ⟨c, m, hm, hcm, hv⟩
          rw [((mem _ _).1 hm).2] at hcm
          have hr := hB.region.1 ((cells b' hb c).1 hcm)
          have : ∀ a, ∃ k : Nat, v a = ((blk b').start a + k : Nat) ∧ k < (blk b').final a - (blk b').start a + 1 := by
            intro a
            have h1 := hr a
            rcases hv a with h | h
            · exact ⟨c a - (blk b').start a, by rw [h]; refine congrArg _ ?_; omega, by omega⟩
            · exact ⟨c a + 1 - (blk b').start a, by rw [h, ← Nat.cast_succ]; refine congrArg _ ?_; omega, by omega⟩
          choose k hk1 hk2 using this
          exact ⟨k, (mlv b' hb k).2 hk2, funext fun a => (hk1 a).symm⟩
    · have hr := (first c).1 h
      have hR := (h3 _ hz).region.1 hr
      have := aD (fun a => c a - (blk fun _ => 0).start a) (fun a => by
        rw [(h3 _ hz).shape]; have := hR a; simp only; omega)
      have e5 : (fun a => (blk fun _ => 0).start a + (c a - (blk fun _ => 0).start a) * (blk fun _ => 0).jumps a) = c := by
        funext a
        rw [(h3 _ hz).jumps a]
        have := hR a
        omega
      simp only at this
      rw [e5] at this
      rw [this]
      unfold center
      have := hR 0
      beta_reduce
      rw [show (blk fun _ => 0).start 0 + (c 0 - (blk fun _ => 0).start 0) = c 0 by omega]
    · rw [bD c fun hr => h ((first c).2 hr)]

/-- The default options. -/
example : ∃ o : Output ℚ, run 4 2 = .ok o ∧ ∃ b m, (b, m) ∈ o.centers ∧ center ![3, 0, 2] ∈ m := by
  obtain ⟨bs, _, hc, _, h⟩ := partdom (K := ℚ) 4 2 (by norm_num) (by norm_num) (by norm_num)
  have h0 : ∀ a, 0 < bs a := by
    intro a
    by_contra hz
    have : count bs = 0 := Finset.prod_eq_zero (Finset.mem_univ a) (by omega)
    omega
  obtain ⟨o, e, _, _, _, _, hm, _⟩ := h fun a => by have := le_count h0 a; omega
  refine ⟨o, e, ?_⟩
  obtain ⟨⟨b, m⟩, h1, h2⟩ := List.mem_flatMap.1 ((hm _).2 ⟨![3, 0, 2], fun a => by fin_cases a <;> simp, rfl⟩)
  exact ⟨b, m, h1, h2⟩

/-- Two processes cannot share one cell. -/
example : run (K := ℚ) 1 2 = .throws .logicError := by
  obtain ⟨bs, _, hc, h, _⟩ := partdom (K := ℚ) 1 2 (by norm_num) (by norm_num) (by norm_num)
  refine h ?_
  by_contra hn
  push Not at hn
  have : count bs ≤ ∏ _a : Fin 3, 1 := Finset.prod_le_prod' fun a _ => hn a
  simp only [Finset.prod_const_one] at this
  omega

end Verif.Partdom
