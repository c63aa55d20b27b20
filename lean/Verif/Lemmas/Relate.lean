import Verif.Model.BinaryStep
import Verif.Lemmas.Alike

/-!
# Programs that run on related data

Computations on related data end alike, operation by operation.
-/

namespace Verif

variable {α β γ δ α' β' γ' δ' : Type}

/-- The same choice on both sides. -/
theorem ite_related {R : α → α' → Prop} {p q : Prop} [Decidable p] [Decidable q] (h : p ↔ q) {a b : α} {a' b' : α'} (h1 : R a a') (h2 : R b b') :
    R (if p then a else b) (if q then a' else b') := by
  by_cases hp : p
  · rw [if_pos hp, if_pos (h.1 hp)]
    exact h1
  · rw [if_neg hp, if_neg fun hq => hp (h.2 hq)]
    exact h2

namespace Alike

variable {R : α → α' → Prop} {S : β → β' → Prop} {o : Outcome α} {o' : Outcome α'}

theorem bind {f : α → Outcome β} {f' : α' → Outcome β'} (h : Alike R o o') (hf : ∀ x x', R x x' → Alike S (f x) (f' x')) :
    Alike S (o.bind f) (o'.bind f') := by
  cases h with
  | ok h => exact hf _ _ h
  | throws e => exact .throws e
  | ub => exact .ub
  | diverges => exact .diverges

theorem map {f : α → β} {f' : α' → β'} (h : Alike R o o') (hf : ∀ x x', R x x' → S (f x) (f' x')) : Alike S (o.map f) (o'.map f') :=
  h.bind fun x x' hx => .ok (hf x x' hx)

theorem mono {R' : α → α' → Prop} (h : Alike R o o') (hr : ∀ x x', R x x' → R' x x') : Alike R' o o' := by
  cases h with
  | ok h => exact .ok (hr _ _ h)
  | throws e => exact .throws e
  | ub => exact .ub
  | diverges => exact .diverges

theorem refl' {R : α → α → Prop} (hr : ∀ x, R x x) (o : Outcome α) : Alike R o o := by
  cases o with
  | ok x => exact .ok (hr x)
  | throws e => exact .throws e
  | ub => exact .ub
  | diverges => exact .diverges

theorem refl (o : Outcome α) : Alike Eq o o := refl' (fun _ => rfl) o

theorem of_eq {f : α → α'} (h : o' = o.map f) : Alike (fun x x' => x' = f x) o o' := by
  subst h
  cases o with
  | ok x => exact .ok rfl
  | throws e => exact .throws e
  | ub => exact .ub
  | diverges => exact .diverges

theorem ok_iff {x : α} {x' : α'} (h : Alike R (.ok x) (.ok x')) : R x x' := by
  cases h with
  | ok h => exact h

theorem ok_left {x : α} (h : Alike R (.ok x) o') : ∃ x', o' = .ok x' ∧ R x x' := by
  cases h with
  | ok h => exact ⟨_, rfl, h⟩

/-- The same computation on both sides. -/
theorem same {o : Outcome γ} {f : γ → Outcome β} {f' : γ → Outcome β'} (hf : ∀ x, Alike S (f x) (f' x)) : Alike S (o.bind f) (o.bind f') :=
  (refl o).bind fun x _ h => h ▸ hf x

theorem ite {p q : Prop} [Decidable p] [Decidable q] (h : p ↔ q) {a b : Outcome α} {a' b' : Outcome α'} (h1 : p → q → Alike R a a')
    (h2 : ¬ p → ¬ q → Alike R b b') : Alike R (if p then a else b) (if q then a' else b') := by
  by_cases hp : p
  · rw [if_pos hp, if_pos (h.1 hp)]
    exact h1 hp (h.1 hp)
  · rw [if_neg hp, if_neg fun hq => hp (h.2 hq)]
    exact h2 hp fun hq => hp (h.2 hq)

/-- Undefined behaviour in the same cases. -/
theorem guard {p q : Prop} [Decidable p] [Decidable q] {b : Outcome α} {b' : Outcome α'} (h : p ↔ q) (hb : ¬ p → ¬ q → Alike R b b') :
    Alike R (if p then .ub else b) (if q then .ub else b') := ite h (fun _ _ => .ub) hb

theorem guardThrows {p q : Prop} [Decidable p] [Decidable q] {e : Exn} {b : Outcome α} {b' : Outcome α'} (h : p ↔ q)
    (hb : ¬ p → ¬ q → Alike R b b') : Alike R (if p then .throws e else b) (if q then .throws e else b') := ite h (fun _ _ => .throws e) hb

theorem rethrow (h : Alike R o o') : Alike R (Tree.rethrow o) (Tree.rethrow o') := by
  cases h with
  | ok h => exact .ok h
  | throws e => exact .throws _
  | ub => exact .ub
  | diverges => exact .diverges

/-- What is done when the exception of a computation is caught. -/
theorem catch_ {f f' : Exn → Outcome _} (h : Alike R o o') (hf : ∀ e, Alike R (f e) (f' e)) :
    Alike R (match o with | .throws e => f e | r => r) (match o' with | .throws e => f' e | r => r) := by
  cases h with
  | ok h => exact .ok h
  | throws e => exact hf e
  | ub => exact .ub
  | diverges => exact .diverges

theorem run_related {step : α → Outcome (α ⊕ β)} {step' : α' → Outcome (α' ⊕ β')} (h : ∀ s s', R s s' → Alike (Sum.LiftRel R S) (step s) (step' s')) :
    ∀ n s s', R s s' → Alike S (Loop.run step n s) (Loop.run step' n s')
  | 0, _, _, _ => .diverges
  | n + 1, s, s', hs => by
    unfold Loop.run
    have := h s s' hs
    generalize step s = a at this
    generalize step' s' = a' at this
    cases this with
    | ok h1 =>
      cases h1 with
      | inl h1 => exact run_related h n _ _ h1
      | inr h1 => exact .ok h1
    | throws e => exact .throws e
    | ub => exact .ub
    | diverges => exact .diverges

theorem diverges_iff (h : Alike R o o') : o = .diverges ↔ o' = .diverges := by
  cases h <;> simp

theorem whileLoop_related {step : α → Outcome (α ⊕ β)} {step' : α' → Outcome (α' ⊕ β')}
    (h : ∀ s s', R s s' → Alike (Sum.LiftRel R S) (step s) (step' s')) {s : α} {s' : α'} (hs : R s s') :
    Alike S (Loop.whileLoop step s) (Loop.whileLoop step' s') := by
  have hr := fun n => run_related h n s s' hs
  by_cases hd : ∃ n, Loop.run step n s ≠ .diverges
  · obtain ⟨n, hn⟩ := hd
    rw [Loop.whileLoop_eq_run step hn, Loop.whileLoop_eq_run step' fun h' => hn ((hr n).diverges_iff.2 h')]
    exact hr n
  · have h1 : ∀ n, Loop.run step n s = .diverges := fun n => by_contra fun hn => hd ⟨n, hn⟩
    rw [(Loop.whileLoop_diverges_iff step s).2 h1, (Loop.whileLoop_diverges_iff step' s').2 fun n => (hr n).diverges_iff.1 (h1 n)]
    exact .diverges

end Alike

namespace Nd

variable {n : Nat} {R : α → α' → Prop} {S : β → β' → Prop} {T : γ → γ' → Prop}

variable {A : Arr n α} {A' : Arr n α'} {B : Arr n β} {B' : Arr n β'}

theorem ArrR.refl (A : Arr n α) : ArrR Eq A A := ⟨rfl, fun _ => Alike.refl _⟩

theorem ArrR.mono {R' : α → α' → Prop} (h : ArrR R A A') (hr : ∀ x x', R x x' → R' x x') : ArrR R' A A' := ⟨h.1, fun i => (h.2 i).mono hr⟩

theorem ArrR.map {f : α → β} {f' : α' → β'} (h : ArrR R A A') (hf : ∀ x x', R x x' → S (f x) (f' x')) : ArrR S (A.map f) (A'.map f') :=
  ⟨h.1, fun i => (h.2 i).map hf⟩

theorem ArrR.mapO {f : α → Outcome β} {f' : α' → Outcome β'} (h : ArrR R A A') (hf : ∀ x x', R x x' → Alike S (f x) (f' x')) :
    ArrR S (A.mapO f) (A'.mapO f') :=
  ⟨h.1, fun i => (h.2 i).bind hf⟩

theorem ArrR.binaryOp {f : α → β → γ} {f' : α' → β' → γ'} (h : ArrR R A A') (h' : ArrR S B B')
    (hf : ∀ x x' y y', R x x' → S y y' → T (f x y) (f' x' y')) : Alike (ArrR T) (binaryOp f A B) (binaryOp f' A' B') := by
  unfold Nd.binaryOp
  rw [h.1, h'.1]
  refine Alike.guardThrows Iff.rfl fun _ _ => Alike.ok ⟨rfl, fun i => ?_⟩
  exact (h.2 i).bind fun x x' hx => (h'.2 i).bind fun y y' hy => Alike.ok (hf x x' y y' hx hy)

theorem ArrR.binaryOpO {f : α → β → Outcome γ} {f' : α' → β' → Outcome γ'} (h : ArrR R A A') (h' : ArrR S B B')
    (hf : ∀ x x' y y', R x x' → S y y' → Alike T (f x y) (f' x' y')) : Alike (ArrR T) (binaryOpO f A B) (binaryOpO f' A' B') := by
  unfold Nd.binaryOpO
  refine (h.binaryOp h' (T := fun p p' => R p.1 p'.1 ∧ S p.2 p'.2) fun x x' y y' hx hy => ⟨hx, hy⟩).map fun Z Z' hZ => ?_
  exact hZ.mapO fun p p' hp => hf _ _ _ _ hp.1 hp.2

theorem ArrR.select (p : AccessPattern n) (h : ArrR R A A') : Alike (ArrR R) (select p A) (select p A') := by
  unfold Nd.select
  rw [h.1]
  exact Alike.guard Iff.rfl fun _ _ => Alike.guardThrows Iff.rfl fun _ _ => Alike.ok ⟨rfl, fun i => h.2 _⟩

theorem ArrR.selectAxis (a s f k : Nat) (b : Bool) (h : ArrR R A A') : Alike (ArrR R) (selectAxis a s f k b A) (selectAxis a s f k b A') := by
  unfold Nd.selectAxis
  split
  · dsimp only
    rw [h.1]
    exact Alike.guard Iff.rfl fun _ _ => Alike.ok ⟨rfl, fun i => h.2 _⟩
  · exact Alike.throws _

theorem ArrR.selectFirst (k a : Nat) (h : ArrR R A A') : Alike (ArrR R) (selectFirst k a A) (selectFirst k a A') := by
  unfold Nd.selectFirst
  split
  · rw [h.1]
    exact h.select _
  · exact Alike.ub

theorem ArrR.selectFinal (k a : Nat) (h : ArrR R A A') : Alike (ArrR R) (selectFinal k a A) (selectFinal k a A') := by
  unfold Nd.selectFinal
  split
  · rw [h.1]
    exact h.select _
  · exact Alike.ub

theorem ArrR.concat {B : Arr n α} {B' : Arr n α'} (a : Nat) (h : ArrR R A A') (h' : ArrR R B B') : Alike (ArrR R) (concat a B A) (concat a B' A') := by
  unfold Nd.concat
  split
  · rw [h.1, h'.1]
    refine Alike.guardThrows Iff.rfl fun _ _ => Alike.ok ⟨rfl, fun i => ?_⟩
    dsimp only
    split
    · exact h'.2 _
    · exact h.2 _
  · exact Alike.throws _

theorem writeAll_related (h : ArrR R A A') (st : Ix n) : ∀ (l : List (Ix n)) {buf : List α} {buf' : List α'}, List.Forall₂ R buf buf' →
    Alike (List.Forall₂ R) (writeAll A st l buf) (writeAll A' st l buf')
  | [], _, _, hb => Alike.ok hb
  | i :: l, buf, buf', hb => by
    unfold writeAll
    refine (h.2 i).bind fun v v' hv => ?_
    rw [hb.length_eq]
    by_cases hk : computeOffset st i < buf'.length
    · rw [if_pos hk, if_pos hk]
      refine writeAll_related h st l ?_
      refine List.forall₂_iff_get.2 ⟨by rw [List.length_set, List.length_set, hb.length_eq], fun j h1 h2 => ?_⟩
      rw [List.get_eq_getElem, List.get_eq_getElem, List.getElem_set, List.getElem_set]
      split
      · exact hv
      · rw [List.length_set] at h1 h2
        exact (List.forall₂_iff_get.1 hb).2 j h1 h2
    · rw [if_neg hk, if_neg hk]
      exact Alike.ub

theorem ofBuffer_related {s : Ix n} {buf : List α} {buf' : List α'} (hb : List.Forall₂ R buf buf') :
    Alike (ArrR R) (ofBuffer s buf) (ofBuffer s buf') := by
  unfold ofBuffer
  refine Alike.guardThrows (by rw [hb.length_eq]) fun _ _ => Alike.ok ⟨rfl, fun i => ?_⟩
  dsimp only
  by_cases hk : computeOffset (strides s) i < buf.length
  · rw [List.getElem?_eq_getElem hk, List.getElem?_eq_getElem (hb.length_eq ▸ hk)]
    exact Alike.ok ((List.forall₂_iff_get.1 hb).2 _ hk (hb.length_eq ▸ hk))
  · rw [List.getElem?_eq_none (by omega), List.getElem?_eq_none (by have := hb.length_eq; omega)]
    exact Alike.ub

theorem ArrR.evaluate {A : Arr (n + 1) α} {A' : Arr (n + 1) α'} [Inhabited α] [Inhabited α'] (h : ArrR R A A') (hd : R default default) :
    Alike (ArrR R) (evaluate A) (evaluate A') := by
  unfold Nd.evaluate
  rw [h.1]
  refine Alike.guardThrows Iff.rfl fun _ _ => Alike.same fun l => ?_
  refine (writeAll_related h _ l ?_).bind fun b b' hb => ofBuffer_related hb
  rw [List.forall₂_iff_get]
  refine ⟨by rw [List.length_replicate, List.length_replicate], fun j h1 h2 => ?_⟩
  rw [List.get_eq_getElem, List.get_eq_getElem, List.getElem_replicate, List.getElem_replicate]
  exact hd

theorem ArrR.difference [Sub α] [Sub α'] (a : Nat) (h : ArrR R A A') (hs : ∀ x x' y y', R x x' → R y y' → S' (x - y) (x' - y')) :
    Alike (ArrR S') (difference a A) (difference a A') := by
  unfold Nd.difference
  exact (h.selectAxis _ _ _ _ _).bind fun U U' hU => (h.selectAxis _ _ _ _ _).bind fun L L' hL => hU.binaryOp hL hs

theorem ArrR.midpoint [Add α] [Mul α] [Add α'] [Mul α'] (half : α) (half' : α') (a : Nat) (h : ArrR R A A')
    (hs : ∀ x x' y y', R x x' → R y y' → R ((x + y) * half) ((x' + y') * half')) :
    Alike (ArrR R) (midpoint half a A) (midpoint half' a A') := by
  unfold Nd.midpoint
  refine (h.selectAxis _ _ _ _ _).bind fun L L' hL => (h.selectAxis _ _ _ _ _).bind fun U U' hU => ?_
  refine (hL.binaryOp hU (T := fun z z' => R (z * half) (z' * half')) fun x x' y y' hx hy => hs x x' y y' hx hy).map fun Z Z' hZ => hZ.map fun _ _ h => h

theorem ArrR.zip (h : ArrR R A A') (h' : ArrR S B B') : Alike (ArrR (PairR R S)) (Nd.binaryOp Prod.mk A B) (Nd.binaryOp Prod.mk A' B') :=
  h.binaryOp h' fun _ _ _ _ hx hy => ⟨hx, hy⟩

theorem ArrR.zipAdjacent2 (a : Nat) (h : ArrR R A A') : Alike (ArrR (PairR R R)) (zipAdjacent2 a A) (zipAdjacent2 a A') := by
  unfold Nd.zipAdjacent2
  exact (h.selectAxis _ _ _ _ _).bind fun L L' hL => (h.selectAxis _ _ _ _ _).bind fun U U' hU => hL.zip hU

theorem ArrR.zipAdjacent3 (a : Nat) (h : ArrR R A A') : Alike (ArrR (PairR R (PairR R R))) (zipAdjacent3 a A) (zipAdjacent3 a A') := by
  unfold Nd.zipAdjacent3
  exact (h.selectAxis _ _ _ _ _).bind fun L L' hL => (h.selectAxis _ _ _ _ _).bind fun M M' hM => (h.selectAxis _ _ _ _ _).bind fun U U' hU =>
    (hM.zip hU).bind fun _ _ hMU => hL.zip hMU

theorem readAll_related (h : ArrR R A A') : ∀ l : List (Ix n), Alike (List.Forall₂ R) (readAll A l) (readAll A' l)
  | [] => Alike.ok .nil
  | i :: l => by
    unfold readAll
    exact (h.2 i).bind fun v v' hv => (readAll_related h l).bind fun vs vs' hvs => Alike.ok (.cons hv hvs)

theorem ArrR.elements {A : Arr (n + 1) α} {A' : Arr (n + 1) α'} (h : ArrR R A A') : Alike (List.Forall₂ R) (elements A) (elements A') := by
  unfold Nd.elements
  rw [h.1]
  exact Alike.same fun l => readAll_related h l

theorem foldl_related [Add α] [Add α'] (ha : ∀ x x' y y', R x x' → R y y' → R (x + y) (x' + y')) {l : List α} {l' : List α'} (h : List.Forall₂ R l l') :
    ∀ {x : α} {x' : α'}, R x x' → R (l.foldl (· + ·) x) (l'.foldl (· + ·) x') := by
  induction h with
  | nil => exact fun hx => hx
  | cons hv _ ih => exact fun hx => ih (ha _ _ _ _ hx hv)

theorem ArrR.sum [Zero α] [Add α] [Zero α'] [Add α'] {A : Arr (n + 1) α} {A' : Arr (n + 1) α'} (h : ArrR R A A') (h0 : R 0 0)
    (ha : ∀ x x' y y', R x x' → R y y' → R (x + y) (x' + y')) : Alike R (sum A) (sum A') := by
  unfold Nd.sum
  exact h.elements.map fun l l' hl => foldl_related ha hl h0

theorem ArrR.minBy {A : Arr (n + 1) α} {A' : Arr (n + 1) α'} {lt : α → α → Bool} {lt' : α' → α' → Bool} {d : α} {d' : α'} (h : ArrR R A A') (hd : R d d')
    (hl : ∀ x x' y y', R x x' → R y y' → lt x y = lt' x' y') : Alike R (minBy lt d A) (minBy lt' d' A') := by
  unfold Nd.minBy
  refine h.elements.map fun l l' hll => ?_
  suffices ∀ (r : Option α) (r' : Option α'), Option.Rel R r r' → R ((l.foldl (fun r x => match r with
    | none => some x
    | some m => if lt x m then some x else some m) r).getD d) ((l'.foldl (fun r x => match r with
    | none => some x
    | some m => if lt' x m then some x else some m) r').getD d') from this none none .none
  induction hll with
  | nil =>
    rintro _ _ (h | _)
    · exact h
    · exact hd
  | @cons x x' l l' hx _ ih =>
    intro r r' hr
    rw [List.foldl_cons, List.foldl_cons]
    refine ih _ _ ?_
    cases hr with
    | none => exact .some hx
    | some hm =>
      dsimp only
      rw [hl _ _ _ _ hx hm]
      split
      · exact .some hx
      · exact .some hm

/-! ### Prolongation and restriction -/

theorem forAxes_related {op : Nat → Arr n α → Outcome (Arr n α)} {op' : Nat → Arr n α' → Outcome (Arr n α')}
    (h : ∀ a A A', ArrR R A A' → Alike (ArrR R) (op a A) (op' a A')) : ∀ k A A', ArrR R A A' → Alike (ArrR R) (forAxes op k A) (forAxes op' k A')
  | 0, _, _, hA => Alike.ok hA
  | k + 1, A, A', hA => by
    unfold forAxes
    exact (forAxes_related h k A A' hA).bind fun B B' hB => h k B B' hB

theorem ArrR.prolongCells (a : Nat) (h : ArrR R A A') : Alike (ArrR R) (prolongCells a A) (prolongCells a A') := by
  unfold Nd.prolongCells
  split
  · rw [h.1]
    refine Alike.ok ⟨rfl, fun i => ?_⟩
    unfold boundsCheck
    dsimp only
    rw [h.1]
    split
    · exact h.2 _
    · exact Alike.throws _
  · exact Alike.ub

theorem ArrR.bisectHalf (b : Bool) (a : Nat) (h : ArrR R A A') : Alike (ArrR R) (bisectHalf bisectCells b a A) (bisectHalf bisectCells b a A') := by
  unfold Nd.bisectHalf
  have : Alike (PairR (ArrR R) (ArrR R)) (bisectCells a A) (bisectCells a A') := by
    unfold bisectCells
    split
    · rw [h.1]
      refine Alike.guardThrows Iff.rfl fun _ _ => ?_
      exact (h.selectAxis _ _ _ _ _).bind fun L L' hL => (h.selectAxis _ _ _ _ _).bind fun U U' hU => Alike.ok ⟨hL, hU⟩
    · exact Alike.ub
  refine this.map fun p p' hp => ?_
  cases b
  · exact hp.1
  · exact hp.2

theorem ArrR.refineCells (k : Nat) (h : ArrR R A A') : Alike (ArrR R) (refineCells k A) (refineCells k A') := by
  unfold Nd.refineCells
  exact (forAxes_related (fun a A A' h => h.prolongCells a) n A A' h).bind fun B B' hB =>
    forAxes_related (op := fun a => Nd.bisectHalf Nd.bisectCells (k.testBit a) a) (op' := fun a => Nd.bisectHalf Nd.bisectCells (k.testBit a) a)
      (fun a A A' h => h.bisectHalf _ a) n B B' hB

theorem ArrR.restrictExtrinsic [Add α] [Add α'] (a : Nat) (h : ArrR R A A') (ha : ∀ x x' y y', R x x' → R y y' → R (x + y) (x' + y')) :
    Alike (ArrR R) (restrictExtrinsic a A) (restrictExtrinsic a A') := by
  unfold Nd.restrictExtrinsic
  exact (h.selectAxis _ _ _ _ _).bind fun L L' hL => (h.selectAxis _ _ _ _ _).bind fun U U' hU => hL.binaryOp hU ha

theorem ArrR.coarsenCells {k : Type} [Field k] [AddCommGroup α] [Module k α] [AddCommGroup α'] [Module k α'] (h : ArrR R A A')
    (ha : ∀ x x' y y', R x x' → R y y' → R (x + y) (x' + y')) (hs : ∀ (c : k) x x', R x x' → R (c • x) (c • x')) :
    Alike (ArrR R) (coarsenCells k A) (coarsenCells k A') := by
  unfold Nd.coarsenCells
  refine forAxes_related (fun a A A' h => ?_) n A A' h
  unfold restrictCells restrictCellsBy
  exact (h.restrictExtrinsic a ha).map fun S S' hS => hS.map fun x x' hx => hs _ x x' hx

theorem combineAxes_related {join : Nat → Arr n α → Arr n α → Outcome (Arr n α)} {join' : Nat → Arr n α' → Arr n α' → Outcome (Arr n α')}
    (hj : ∀ a A A' B B', ArrR R A A' → ArrR R B B' → Alike (ArrR R) (join a A B) (join' a A' B')) {c : Nat → Arr n α} {c' : Nat → Arr n α'}
    (h : ∀ k, ArrR R (c k) (c' k)) : ∀ m k, Alike (ArrR R) (combineAxes join c m k) (combineAxes join' c' m k)
  | 0, k => Alike.ok (h k)
  | m + 1, k => by
    unfold combineAxes
    exact (combineAxes_related hj h m (2 * k)).bind fun A A' hA => (combineAxes_related hj h m (2 * k + 1)).bind fun B B' hB => hj _ _ _ _ _ hA hB

theorem combineCells_related {c : Nat → Arr n α} {c' : Nat → Arr n α'} (h : ∀ k, ArrR R (c k) (c' k)) :
    Alike (ArrR R) (combineCells c) (combineCells c') :=
  combineAxes_related (fun a _ _ _ _ hA hB => hA.concat a hB) h n 0

end Nd

namespace Tree

variable {r : Nat} {R : α → α' → Prop} {S : β → β' → Prop} {T : γ → γ' → Prop} (sh : Nat → Outcome Nat)

/-- Induction over two related trees. -/
theorem TreeR.rec' {P : Tree r α → Tree r α' → Prop} (hl : ∀ a a', R a a' → P (.leaf a) (.leaf a'))
    (hn : ∀ c c', (∀ k, TreeR R (c k) (c' k)) → (∀ k, P (c k) (c' k)) → P (.node c) (.node c')) : ∀ {t : Tree r α} {t' : Tree r α'}, TreeR R t t' → P t t' := by
  intro t
  induction t with
  | leaf a =>
    intro t' h
    cases t' with
    | leaf a' => exact hl a a' h
    | node c' => exact h.elim
  | node c ih =>
    intro t' h
    cases t' with
    | leaf a' => exact h.elim
    | node c' => exact hn c c' h fun k => ih k (h k)

theorem TreeR.refl (t : Tree r α) : TreeR Eq t t := by
  induction t with
  | leaf a => rfl
  | node c ih => exact ih

variable {t : Tree r α} {t' : Tree r α'} {u : Tree r β} {u' : Tree r β'}

theorem TreeR.mono {R' : α → α' → Prop} (h : TreeR R t t') (hr : ∀ x x', R x x' → R' x x') : TreeR R' t t' :=
  TreeR.rec' (P := fun t t' => TreeR R' t t') (fun _ _ h => hr _ _ h) (fun _ _ _ ih => ih) h

theorem TreeR.map {f : α → β} {f' : α' → β'} (h : TreeR R t t') (hf : ∀ x x', R x x' → S (f x) (f' x')) : TreeR S (t.map f) (t'.map f') :=
  TreeR.rec' (P := fun t t' => TreeR S (t.map f) (t'.map f')) (fun _ _ h => hf _ _ h) (fun _ _ _ ih => ih) h

theorem sequence_related : ∀ {n : Nat} {c : Fin n → Outcome α} {c' : Fin n → Outcome α'}, (∀ k, Alike R (c k) (c' k)) →
    Alike (fun x x' => ∀ k, R (x k) (x' k)) (Tree.sequence c) (Tree.sequence c')
  | 0, _, _, _ => Alike.ok fun k => k.elim0
  | n + 1, c, c', h => by
    unfold Tree.sequence
    refine (h 0).bind fun x x' hx => (sequence_related fun k => h k.succ).bind fun xs xs' hxs => Alike.ok fun k => ?_
    refine Fin.cases ?_ (fun k => ?_) k
    · exact hx
    · exact hxs k

theorem TreeR.mapM {f : α → Outcome β} {f' : α' → Outcome β'} (h : TreeR R t t') (hf : ∀ x x', R x x' → Alike S (f x) (f' x')) :
    Alike (TreeR S) (t.mapM f) (t'.mapM f') :=
  TreeR.rec' (P := fun t t' => Alike (TreeR S) (t.mapM f) (t'.mapM f')) (fun _ _ h => (hf _ _ h).map fun _ _ h => h)
    (fun _ _ _ ih => (sequence_related ih).map fun _ _ h => h) h

theorem TreeR.indexes (h : TreeR R t t') (i : Index r) : t.indexes i = t'.indexes i :=
  TreeR.rec' (P := fun t t' => ∀ i, t.indexes i = t'.indexes i) (fun _ _ _ _ => rfl)
    (fun c c' _ ih i => by
      show Tree.node _ = Tree.node _
      congr 1
      funext k
      exact ih k _) h i

theorem TreeR.contains (h : TreeR R t t') (i : Index r) : t.contains sh i = t'.contains sh i :=
  TreeR.rec' (P := fun t t' => ∀ i, t.contains sh i = t'.contains sh i) (fun _ _ _ _ => rfl)
    (fun c c' _ ih i => by
      show (i.orthant sh).bind _ = (i.orthant sh).bind _
      congr 1
      funext o
      show Outcome.bind _ _ = Outcome.bind _ _
      congr 1
      funext k
      congr 1
      funext j
      exact ih k j) h i

theorem TreeR.nodeAt (h : TreeR R t t') (i : Index r) : Alike (TreeR R) (t.nodeAt sh i) (t'.nodeAt sh i) :=
  TreeR.rec' (P := fun t t' => ∀ i, Alike (TreeR R) (t.nodeAt sh i) (t'.nodeAt sh i))
    (fun a a' ha i => by
      unfold Tree.nodeAt
      split
      · split
        · exact Alike.throws _
        · exact Alike.ok ha
      · exact Alike.throws _)
    (fun c c' hc ih i => by
      unfold Tree.nodeAt
      split
      · split
        · exact Alike.throws _
        · exact Alike.ok hc
      · exact Alike.same fun o => (Alike.refl (Tree.childAt c o)).bind fun k k' hk => Alike.same fun j => hk ▸ ih k j) h i

theorem TreeR.at (h : TreeR R t t') (i : Index r) : Alike R (t.at' sh i) (t'.at' sh i) := by
  unfold Tree.at'
  refine (h.nodeAt sh i).bind fun v v' hv => ?_
  cases v with
  | leaf a =>
    cases v' with
    | leaf a' => exact Alike.ok hv
    | node c' => exact hv.elim
  | node c =>
    cases v' with
    | leaf a' => exact hv.elim
    | node c' => exact Alike.throws _

theorem TreeR.binaryOp {f : α → β → γ} {f' : α' → β' → γ'} (h : TreeR R t t') (h' : TreeR S u u')
    (hf : ∀ x x' y y', R x x' → S y y' → T (f x y) (f' x' y')) : Alike (TreeR T) (t.binaryOp f u) (t'.binaryOp f' u') :=
  TreeR.rec' (P := fun t t' => ∀ (u : Tree r β) (u' : Tree r β'), TreeR S u u' → Alike (TreeR T) (t.binaryOp f u) (t'.binaryOp f' u'))
    (fun a a' ha u u' hu => by
      unfold Tree.binaryOp
      cases u with
      | leaf b =>
        cases u' with
        | leaf b' => exact Alike.ok (hf _ _ _ _ ha hu)
        | node d' => exact hu.elim
      | node d =>
        cases u' with
        | leaf b' => exact hu.elim
        | node d' => exact Alike.throws _)
    (fun c c' _ ih u u' hu => by
      cases u with
      | leaf b =>
        cases u' with
        | leaf b' => exact Alike.throws _
        | node d' => exact hu.elim
      | node d =>
        cases u' with
        | leaf b' => exact hu.elim
        | node d' =>
          unfold Tree.binaryOp
          exact (sequence_related fun k => ih k _ _ (hu k)).bind fun e e' he => Alike.ok he) h u u' h'

theorem TreeR.pair (h : TreeR R t t') (h' : TreeR S u u') : Alike (TreeR (PairR R S)) (t.pair u) (t'.pair u') :=
  h.binaryOp h' fun _ _ _ _ hx hy => ⟨hx, hy⟩

theorem TreeR.pairIndexes (h : TreeR R t t') : Alike (TreeR (PairR Eq R)) t.pairIndexes t'.pairIndexes := by
  unfold Tree.pairIndexes
  rw [h.indexes]
  exact (TreeR.refl _).pair h

theorem fin_foldl_related : ∀ {n : Nat} {f : α → Fin n → α} {f' : α' → Fin n → α'}, (∀ x x' i, R x x' → R (f x i) (f' x' i)) → ∀ {x : α} {x' : α'}, R x x' →
    R (Fin.foldl n f x) (Fin.foldl n f' x')
  | 0, _, _, _, _, _, hx => by
    rw [Fin.foldl_zero, Fin.foldl_zero]
    exact hx
  | n + 1, f, f', h, _, _, hx => by
    rw [Fin.foldl_succ, Fin.foldl_succ]
    exact fin_foldl_related (fun x x' i => h x x' i.succ) (h _ _ 0 hx)

theorem TreeR.sum [Zero α] [Add α] [Zero α'] [Add α'] (h : TreeR R t t') (h0 : R 0 0) (ha : ∀ x x' y y', R x x' → R y y' → R (x + y) (x' + y')) :
    R t.sum t'.sum :=
  TreeR.rec' (P := fun t t' => R t.sum t'.sum) (fun _ _ h => h) (fun _ _ _ ih => fin_foldl_related (fun _ _ i hx => ha _ _ _ _ hx (ih i)) h0) h

theorem TreeR.min [LT α] [DecidableRel (α := α) (· < ·)] [LT α'] [DecidableRel (α := α') (· < ·)] (h : TreeR R t t')
    (hl : ∀ x x' y y', R x x' → R y y' → (x < y ↔ x' < y')) : R t.min t'.min := by
  refine TreeR.rec' (R := R) (P := fun t t' => R t.min t'.min) (fun _ _ h => h) (fun c c' _ ih => ?_) h
  show R (Seq.min _) (Seq.min _)
  refine fin_foldl_related (fun r r' k hr => ?_) (ih _)
  unfold Seq.stdMin
  exact ite_related (hl _ _ _ _ (ih _) hr) (ih _) hr

theorem TreeR.eq {t t' : Tree r α} (h : TreeR Eq t t') : t = t' :=
  TreeR.rec' (P := fun t t' => t = t') (fun _ _ h => congrArg _ h) (fun _ _ _ ih => congrArg _ (funext ih)) h

end Tree

/-! ### Blocks of the quadtree -/

namespace Binary
open Nd Tree

variable {K K' : Type} [AddCommGroup K] [Module ℝ K] [Inhabited K] [AddCommGroup K'] [Module ℝ K'] [Inhabited K'] (sh : Nat → Outcome Nat)

/-- A relation that is linear. -/
structure LinearR (R : K → K' → Prop) : Prop where
  default : R default default
  add : ∀ x x' y y', R x x' → R y y' → R (x + y) (x' + y')
  sub : ∀ x x' y y', R x x' → R y y' → R (x - y) (x' - y')
  smul : ∀ (c : ℝ) x x', R x x' → R (c • x) (c • x')

variable {R : K → K' → Prop} (hR : LinearR R)
include hR

theorem childBlocks_related {g : Index 2 → Outcome (Arr 2 K)} {g' : Index 2 → Outcome (Arr 2 K')} (h : ∀ i, Alike (ArrR R) (g i) (g' i)) (i : Index 2) :
    Alike (fun c c' => ∀ k, ArrR R (c k) (c' k)) (childBlocks g i) (childBlocks g' i) := by
  unfold childBlocks
  exact (sequence_related fun k => h _).map fun c c' hc k => hc _

theorem getCellBlock_related {t : Tree 2 (Arr 2 K)} {t' : Tree 2 (Arr 2 K')} (h : TreeR (ArrR R) t t') :
    ∀ fuel i, Alike (ArrR R) (getCellBlock (R := 1) sh ℝ t fuel i) (getCellBlock (R := 1) sh ℝ t' fuel i)
  | 0, _ => .diverges
  | fuel + 1, i => by
    unfold getCellBlock
    refine Alike.rethrow ?_
    rw [h.contains sh i, h.contains sh i.parentIndex]
    refine Alike.same fun b => Alike.ite Iff.rfl (fun _ _ => ?_) fun _ _ => Alike.same fun b => Alike.ite Iff.rfl (fun _ _ => ?_) fun _ _ => ?_
    · exact (h.at sh i).bind fun A A' hA => hA.evaluate hR.default
    · exact Alike.same fun o => (h.at sh _).bind fun B B' hB => (hB.refineCells _).bind fun A A' hA => hA.evaluate hR.default
    · exact (childBlocks_related hR (getCellBlock_related h fuel) i).bind fun c c' hc => (combineCells_related hc).bind fun B B' hB =>
        (hB.coarsenCells hR.add hR.smul).bind fun A A' hA => hA.evaluate hR.default

theorem joined_related (a : Fin 2) (s : Nat) {t : Tree 2 (Arr 2 K)} {t' : Tree 2 (Arr 2 K')} (h : TreeR (ArrR R) t t') :
    Alike (ArrR R) (joined sh a s t) (joined sh a s t') := by
  unfold joined
  exact (h.at sh _).bind fun A A' hA => (h.at sh _).bind fun B B' hB => (hA.concat _ hB).bind fun C C' hC => hC.restrictExtrinsic _ hR.add

theorem correctFluxes_related (a : Fin 2) {t : Tree 2 (Arr 2 K)} {t' : Tree 2 (Arr 2 K')} (h : TreeR (ArrR R) t t') :
    Alike (TreeR (ArrR R)) (correctFluxes sh a t) (correctFluxes sh a t') := by
  unfold correctFluxes
  rw [h.indexes]
  refine (TreeR.refl _).mapM ?_
  rintro i _ rfl
  unfold correctBlock
  refine (h.at sh i).bind fun F F' hF => Alike.bind (R := ArrR R) ?_ fun F F' hF => ?_
  · unfold correctLower
    refine Alike.same fun j => ?_
    rw [h.contains sh j, h.contains sh j.parentIndex]
    refine Alike.same fun b => Alike.ite Iff.rfl (fun _ _ => .ok hF) fun _ _ => Alike.same fun b => Alike.ite Iff.rfl (fun _ _ => .ok hF) fun _ _ => ?_
    exact (h.nodeAt sh j).bind fun n n' hn => (joined_related sh hR a 1 hn).bind fun D D' hD => (hD.selectFinal 1 a).bind fun l l' hl =>
      (hF.selectAxis _ _ _ _ _).bind fun u u' hu => (hl.concat a hu).bind fun A A' hA => hA.evaluate hR.default
  · unfold correctUpper
    refine Alike.same fun j => ?_
    rw [h.contains sh j, h.contains sh j.parentIndex]
    refine Alike.same fun b => Alike.ite Iff.rfl (fun _ _ => .ok hF) fun _ _ => Alike.same fun b => Alike.ite Iff.rfl (fun _ _ => .ok hF) fun _ _ => ?_
    exact (h.nodeAt sh j).bind fun n n' hn => (joined_related sh hR a 0 hn).bind fun D D' hD => (hD.selectFirst 1 a).bind fun u u' hu =>
      (hF.selectAxis _ _ _ _ _).bind fun l l' hl => (hl.concat a hu).bind fun A A' hA => hA.evaluate hR.default

end Binary

namespace Binary
open Nd Tree Iso2d

variable (sh : Nat → Outcome Nat) {R : Tri → Tri → Prop} (hR : LinearR R)
include hR

theorem extend_related (fuel : Nat) {t t' : Quad Tri} (h : TreeR (ArrR R) t t') (a : Fin 2) :
    Alike (TreeR (ArrR R)) (extend sh fuel t a) (extend sh fuel t' a) := by
  have hpost : ∀ {post post' : Arr 2 Tri → Outcome (Arr 2 Tri)}, (∀ A A', ArrR R A A' → Alike (ArrR R) (post A) (post' A')) → ∀ i,
      Alike (ArrR R) (getCellBlockWith sh post t fuel i) (getCellBlockWith sh post' t' fuel i) := by
    intro post post' hp i
    unfold getCellBlockWith
    refine Alike.rethrow ?_
    rw [h.contains sh i, h.contains sh i.parentIndex]
    refine Alike.same fun b => Alike.ite Iff.rfl (fun _ _ => ?_) fun _ _ => Alike.same fun b => Alike.ite Iff.rfl (fun _ _ => ?_) fun _ _ => ?_
    · exact (h.at sh i).bind hp
    · exact Alike.same fun o => (h.at sh _).bind fun B B' hB => (hB.refineCells _).bind hp
    · exact (childBlocks_related hR (getCellBlock_related sh hR h fuel) i).bind fun c c' hc => (combineCells_related hc).bind fun B B' hB =>
        (hB.coarsenCells hR.add hR.smul).bind hp
  unfold extend
  rw [h.indexes]
  refine (TreeR.refl _).mapM ?_
  rintro i _ rfl
  unfold extendBlock
  refine (h.at sh i).bind fun C C' hC => Alike.same fun p => ?_
  refine (hpost (fun A A' hA => (hA.selectFinal 1 a).bind fun B B' hB => hB.evaluate hR.default) p).bind fun L L' hL => Alike.same fun n => ?_
  refine (hpost (fun A A' hA => (hA.selectFirst 1 a).bind fun B B' hB => hB.evaluate hR.default) n).bind fun N N' hN => ?_
  exact (hL.concat a hC).bind fun A A' hA => (hA.concat a hN).bind fun A A' hA => hA.evaluate hR.default

end Binary

end Verif
