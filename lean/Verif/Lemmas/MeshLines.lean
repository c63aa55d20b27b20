import Verif.Lemmas.QuadtreeBlocks
import Verif.Props.Quadtree

/-!
# The lines of a mesh, in any arithmetic
-/

namespace Verif.Tree
open Verif Verif.Seq Verif.Nd

variable {K β : Type}

/-- The lines of level `l`: those of the level below, and their midpoints. -/
def line (mid : K → K → K) (x : Nat → K) : Nat → Nat → K
  | 0, k => x k
  | l + 1, k => mid (line mid x l (k / 2)) (line mid x l (k / 2 + k % 2))

theorem line_even {mid : K → K → K} (hm : ∀ a, mid a a = a) (x : Nat → K) (l k : Nat) :
    line mid x (l + 1) (2 * k) = line mid x l k := by
  rw [line, show 2 * k / 2 = k by omega, show 2 * k % 2 = 0 by omega, Nat.add_zero, hm]

theorem line_up {mid : K → K → K} (hm : ∀ a, mid a a = a) (x : Nat → K) (l k m : Nat) :
    line mid x (l + m) (k * 2 ^ m) = line mid x l k := by
  induction m with
  | zero => simp
  | succ m ih => rw [← ih, ← Nat.add_assoc, show k * 2 ^ (m + 1) = 2 * (k * 2 ^ m) by ring, line_even hm]

/-- Lines at the same place are the same. -/
theorem line_congr {mid : K → K → K} (hm : ∀ a, mid a a = a) (x : Nat → K) {l k l' k' : Nat}
    (h : k * 2 ^ l' = k' * 2 ^ l) : line mid x l k = line mid x l' k' := by
  rw [← line_up hm x l k l', ← line_up hm x l' k' l, h, Nat.add_comm]

/-- The block of the cell `i` is made of lines. -/
def OnLines (mid : K → K → K) (x y : Nat → K) (nx ny : Nat) (i : Index 2) (b : Arr 2 (K × K)) : Prop :=
  Denotes b ![nx + 1, ny + 1] fun p =>
    (line mid x i.level (i.coords 0 * nx + p 0), line mid y i.level (i.coords 1 * ny + p 1))

variable {mid : K → K → K} {x y : Nat → K} {nx ny : Nat}

/-- The midpoint of two vertices. -/
def midPair (mid : K → K → K) (l u : K × K) : K × K := (mid l.1 u.1, mid l.2 u.2)

theorem shape_pos (nx ny : Nat) : ∀ a, 1 ≤ (![nx + 1, ny + 1] : Ix 2) a := by
  intro a; match a with
  | 0 => simp
  | 1 => simp

theorem shape_count {nx ny : Nat} (hc : (nx + 1) * (ny + 1) < 2 ^ 31) : count (![nx + 1, ny + 1] : Ix 2) < 2 ^ 31 := by
  unfold count; simpa using hc

theorem refine_lines [Inhabited K] (hm : ∀ a, mid a a = a) (hc : (nx + 1) * (ny + 1) < 2 ^ 31) {i : Index 2}
    {b : Arr 2 (K × K)} (hb : OnLines mid x y nx ny i b) :
    ∃ c, refineVertsSharedBy (midPair mid) b = .ok c ∧ ∀ n : Fin (2 ^ 2), OnLines mid x y nx ny (i.child (Fin.val n)) (c n) := by
  have hs := shape_pos nx ny
  have hcount := shape_count hc
  have hlt := lt_of_count hs hcount
  obtain ⟨P0, h0, d0⟩ := prolongVertsBy_denotes (midPair mid) hb 0 (hs 0) (by have := hlt 0; omega)
  obtain ⟨P1, h1, d1⟩ := prolongVertsBy_denotes (midPair mid) d0 1 (by simp) (by simp; have := hlt 1; simp at this; omega)
  have hP : forAxes (prolongVertsBy (midPair mid)) 2 b = .ok P1 := by
    show ((forAxes (prolongVertsBy (midPair mid)) 1 b).bind (prolongVertsBy (midPair mid) 1)) = _
    have : forAxes (prolongVertsBy (midPair mid)) 1 b = .ok P0 := by
      show ((Outcome.ok b).bind (prolongVertsBy (midPair mid) 0)) = _
      rw [Outcome.bind_ok]; exact h0
    rw [this, Outcome.bind_ok]; exact h1
  have dP : Denotes P1 (fun a => 2 * (![nx + 1, ny + 1] : Ix 2) a - 1) fun p =>
      (line mid x (i.level + 1) (2 * i.coords 0 * nx + p 0), line mid y (i.level + 1) (2 * i.coords 1 * ny + p 1)) := by
    refine d1.congr ?_ fun p _ => ?_
    · funext a
      match a with
      | 0 => simp
      | 1 => simp
    · simp only [midPair, line, hm]
      have e : ∀ a b : Nat, (2 * a * nx + b) / 2 = a * nx + b / 2 := fun a b => by
        rw [show 2 * a * nx + b = b + 2 * (a * nx) by ring, Nat.add_mul_div_left _ _ (by norm_num)]; ring
      have e' : ∀ a b : Nat, (2 * a * ny + b) / 2 = a * ny + b / 2 := fun a b => by
        rw [show 2 * a * ny + b = b + 2 * (a * ny) by ring, Nat.add_mul_div_left _ _ (by norm_num)]; ring
      have f : ∀ a b : Nat, (2 * a * nx + b) % 2 = b % 2 := fun a b => by
        rw [show 2 * a * nx + b = b + 2 * (a * nx) by ring, Nat.add_mul_mod_self_left]
      have f' : ∀ a b : Nat, (2 * a * ny + b) % 2 = b % 2 := fun a b => by
        rw [show 2 * a * ny + b = b + 2 * (a * ny) by ring, Nat.add_mul_mod_self_left]
      rw [e, e', f, f']
      simp [Function.update, Nat.add_assoc, hm]
  obtain ⟨c, h3, h4⟩ := refineVertsSharedBy_denotes (midPair mid) hP dP hs hcount
  refine ⟨c, h3, fun n => (h4 n).congr rfl fun p _ => ?_⟩
  refine Prod.ext ?_ ?_
  · refine congrArg (line mid x (i.level + 1)) ?_
    simp only [Index.child, Fin.val_zero]
    by_cases h : Nat.testBit (Fin.val n) 0 = true
    · simp only [h, if_true, Bool.toNat_true]; simp; ring
    · simp only [Bool.not_eq_true] at h; simp [h]
  · refine congrArg (line mid y (i.level + 1)) ?_
    simp only [Index.child, Fin.val_one]
    by_cases h : Nat.testBit (Fin.val n) 1 = true
    · simp only [h, if_true, Bool.toNat_true]; simp; ring
    · simp only [Bool.not_eq_true] at h; simp [h]

/-- The loop. -/
theorem refineLoop_lines [Inhabited K] (hm : ∀ a, mid a a = a) (hc : (nx + 1) * (ny + 1) < 2 ^ 31)
    (radius : Arr 2 (K × K) → Outcome β) (hr : ∀ i b, OnLines mid x y nx ny i b → ∃ ρ, radius b = .ok ρ)
    (predicate : Nat → β → Bool) {b : Arr 2 (K × K)} (hb : OnLines mid x y nx ny Index.root b) (n : Nat) :
    ∃ r, refineLoopBy (midPair mid) radius predicate n (.leaf b) = .ok r ∧ DepthLe r n ∧
      ∀ i b, LeafAt r i b → OnLines mid x y nx ny i b := by
  induction n with
  | zero => exact ⟨.leaf b, rfl, fun i a h => by rw [(leafAt_leaf.1 h).1]; exact le_rfl, fun i a h => by
      obtain ⟨rfl, rfl⟩ := leafAt_leaf.1 h; exact hb⟩
  | succ n ih =>
    obtain ⟨r, h1, h2, h3⟩ := ih
    have hdiv : ∀ b, ∃ c, ∀ i, LeafAt r i b → refineVertsSharedBy (midPair mid) b = .ok c ∧
        ∀ m : Fin (2 ^ 2), OnLines mid x y nx ny (i.child (Fin.val m)) (c m) := by
      intro b
      by_cases h : ∃ i, LeafAt r i b
      · obtain ⟨i, hi⟩ := h
        obtain ⟨c, h7, _⟩ := refine_lines hm hc (h3 i b hi)
        refine ⟨c, fun i' hi' => ⟨h7, ?_⟩⟩
        obtain ⟨c', h7', h8'⟩ := refine_lines hm hc (h3 i' b hi')
        rw [h7] at h7'
        rw [Outcome.ok.inj h7']
        exact h8'
      · exact ⟨fun _ => b, fun i hi => absurd ⟨i, hi⟩ h⟩
    choose g hg1 using hdiv
    have hrad : ∀ b, ∃ z : Bool, ∀ i, LeafAt r i b → (radius b).map (predicate n) = .ok z := by
      intro b
      by_cases h : ∃ i, LeafAt r i b
      · obtain ⟨i, hi⟩ := h
        obtain ⟨ρ, hρ⟩ := hr i b (h3 i b hi)
        exact ⟨predicate n ρ, fun j _ => by rw [hρ]; rfl⟩
      · exact ⟨true, fun i hi => absurd ⟨i, hi⟩ h⟩
    choose ρ hρ using hrad
    have hb := bifurcateIfMM_ok (t := r) (p := fun b => (radius b).map (predicate n))
      (q := ρ) (f := refineVertsSharedBy (midPair mid)) (g := g)
      (fun i b hi => hρ b i hi) (fun i b hi _ => (hg1 b i hi).1)
    refine ⟨_, by rw [refineLoopBy, h1, Outcome.bind_ok, hb], fun i b hi => ?_, fun i b hi => ?_⟩
    · rcases (tree_bifurcate_if _ _ _ _ _).1 hi with ⟨h, _⟩ | ⟨j, a, m, h, _, rfl, rfl⟩
      · have := h2 i b h; omega
      · have := h2 j a h; simp only [Index.child]; omega
    · rcases (tree_bifurcate_if _ _ _ _ _).1 hi with ⟨h, _⟩ | ⟨j, a, m, h, _, rfl, rfl⟩
      · exact h3 i b h
      · exact (hg1 a j h).2 m

/-- The mesh. -/
theorem create_lines {sh : Nat → Outcome Nat} (hs : Shift sh) [Inhabited K] (hm : ∀ a, mid a a = a)
    (hc : (nx + 1) * (ny + 1) < 2 ^ 31)
    (radius : Arr 2 (K × K) → Outcome β) (hr : ∀ i b, OnLines mid x y nx ny i b → ∃ ρ, radius b = .ok ρ)
    (predicate : Nat → β → Bool) {root : Outcome (Arr 2 (K × K))} {b : Arr 2 (K × K)} (hroot : root = .ok b)
    (hb : OnLines mid x y nx ny Index.root b) (depth : Nat) (h30 : depth ≤ 30) :
    ∃ N r, (∀ fuel, N ≤ fuel → createVertexQuadtreeBy sh (midPair mid) radius predicate root depth fuel = .ok r) ∧
      Balanced r ∧ DepthLe r depth ∧ ∀ i b, LeafAt r i b → OnLines mid x y nx ny i b := by
  obtain ⟨t, h3, h4, h5⟩ := refineLoop_lines hm hc radius hr predicate hb depth
  obtain ⟨N, r, g1, g2, g3, g4, _⟩ := ensureValid_code hs (refineVertsSharedBy (midPair mid)) depth h30
    (fun i b => OnLines mid x y nx ny i b) (fun i b _ _ hb => refine_lines hm hc hb)
    ((2 ^ 2) ^ depth + 1) t (by omega) h4 h5
  refine ⟨N, r, fun fuel hf => ?_, g2, g3, g4⟩
  unfold createVertexQuadtreeBy
  rw [hroot, Outcome.bind_ok, h3, Outcome.bind_ok, g1 fuel hf]

end Verif.Tree
