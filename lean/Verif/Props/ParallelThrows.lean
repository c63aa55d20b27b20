import Verif.Model.ParallelThrows
import Verif.Props.Parallel
import Verif.Props.ThreadPool
import Verif.Spec.Tree

/-!
# Exceptions of computations on several threads (C133)

That a computation runs on other threads should not be visible: if it fails, then with an exception that the
caller can catch, as the same computation does on one thread.  This is so for trees mapped with `std::async`.
It is not so for arrays evaluated with `evaluate_on` and for jobs and trees given to a thread pool: there the
program ends.
-/

namespace Verif.Par
open Verif Verif.Nd Verif.Tree
variable {J ρ α β σ : Type} {R : Nat}

/-! ### `evaluate_on` -/

theorem writeAll_throws {A : Arr R α} {s : Ix R} (hc : count s < 2 ^ 64) (l : List (Ix R))
    (hl : ∀ i ∈ l, InShape s i ∧ ((∃ v, A.get i = .ok v) ∨ ∃ e, A.get i = .throws e)) (buf : List α)
    (hb : buf.length = count s) (ht : ∃ i ∈ l, ∃ e, A.get i = .throws e) :
    ∃ j ∈ l, ∃ e, A.get j = .throws e ∧ writeAll A (strides s) l buf = .throws e := by
  induction l generalizing buf with
  | nil =>
    obtain ⟨i, hi, _⟩ := ht
    cases hi
  | cons j l ih =>
    obtain ⟨hj, hg | ⟨e, hg⟩⟩ := hl j (by simp)
    · obtain ⟨v, hv⟩ := hg
      have hlt := off_lt s j hj
      have ht' : ∃ i ∈ l, ∃ e, A.get i = .throws e := by
        obtain ⟨i, hi, e, h1⟩ := ht
        rcases List.mem_cons.1 hi with rfl | hi
        · rw [hv] at h1; cases h1
        · exact ⟨i, hi, e, h1⟩
      obtain ⟨k, hk, e, h1, h2⟩ := ih (fun i hi => hl i (by simp [hi])) (buf.set (off s j) v) (by simpa using hb) ht'
      refine ⟨k, by simp [hk], e, h1, ?_⟩
      unfold writeAll
      rw [hv, Outcome.bind_ok, computeOffset_off s j hj hc, if_pos (by omega), h2]
    · refine ⟨j, by simp, e, hg, ?_⟩
      unfold writeAll
      rw [hg]
      rfl

theorem forall₂_unique {ι κ : Type} {P : ι → κ → Prop} (h : ∀ a b c, P a b → P a c → b = c) {l : List ι} {m n : List κ}
    (h1 : List.Forall₂ P l m) (h2 : List.Forall₂ P l n) : m = n := by
  induction h1 generalizing n with
  | nil => cases h2; rfl
  | cons ha _ ih => cases h2 with
    | cons hb h2 => rw [h _ _ _ ha hb, ih h2]

/-- **C133**: an array too large to be counted by an `int` is refused with the same exception as on one thread, whatever its elements do. -/
theorem evaluate_on_too_large [Inhabited α] (N : Nat) (A : Arr (R + 1) α) (h : 2 ^ 31 ≤ count A.shape) (h' : count A.shape < 2 ^ 32) :
    evaluate A = .throws .badAlloc ∧ ∀ o, EvaluateEnds N A o ↔ o = .throws .badAlloc := by
  have hv : volume A.shape ≥ 2 ^ 63 := by
    rw [volume_eq, Int.bmod_def]
    unfold ofInt
    split_ifs <;> omega
  refine ⟨?_, fun o => ?_⟩
  · unfold evaluate
    rw [if_pos hv]
  · unfold EvaluateEnds
    rw [if_pos hv]

example : evaluate (⟨![65536, 32768], fun _ => .throws .other⟩ : Arr 2 Nat) = .throws .badAlloc ∧
    ∀ o, EvaluateEnds 4 (⟨![65536, 32768], fun _ => .throws .other⟩ : Arr 2 Nat) o ↔ o = .throws .badAlloc :=
  evaluate_on_too_large 4 _ (by simp [count, Fin.prod_univ_two]) (by simp [count, Fin.prod_univ_two])

/-- **C133, violated.** An array some element of which throws, evaluated on one thread: the caller gets the
exception of such an element.  On any number of threads the program ends, whatever the order of events. -/
theorem evaluate_on_throws_violated [Inhabited α] (N : Nat) (A : Arr (R + 1) α) (hN : 0 < N)
    (hp : (∀ a, 0 < A.shape a) ∨ R = 0) (hle : N ≤ A.shape 0 ∨ R = 0) (hc : count A.shape < 2 ^ 31)
    (hbN : N * A.shape 0 < 2 ^ 64)
    (hA : ∀ i, InShape A.shape i → (∃ v, A.get i = .ok v) ∨ ∃ e, A.get i = .throws e)
    (ht : ∃ i e, InShape A.shape i ∧ A.get i = .throws e) :
    (∃ i e, InShape A.shape i ∧ A.get i = .throws e ∧ Ending.ofCall (evaluate A) = .throws e) ∧
      (∃ o, EvaluateEnds N A o) ∧ ∀ o, EvaluateEnds N A o → o = .terminates := by
  obtain ⟨i0, e0, hi0, he0⟩ := ht
  have hb : ∀ a, A.shape a < 2 ^ 64 := by
    intro a
    rcases hp with hp | rfl
    · have := le_count hp a; omega
    · have : count A.shape = A.shape 0 := by simp [count]
      rw [Fin.fin_one_eq_zero a]; omega
  obtain ⟨⟨ls, hls, _, hmem, hnr⟩, _⟩ := evaluate_on_partial N (⟨A.shape, fun _ => .ok default⟩ : Arr (R + 1) α) A.shape
    (fun _ => default) ⟨rfl, fun _ _ => rfl⟩ hN hp hle hc hbN
  have key : ∀ l : List (Ix (R + 1)), (∀ i, i ∈ l ↔ InShape A.shape i) → ∃ j ∈ l, ∃ e, A.get j = .throws e ∧
      writeAll A (strides A.shape) l (List.replicate (volume A.shape) default) = .throws e := fun l hl =>
    writeAll_throws (by omega) l (fun i hi => ⟨(hl i).1 hi, hA i ((hl i).1 hi)⟩) _
      (by rw [List.length_replicate, volume_small hc]) ⟨i0, (hl i0).2 hi0, e0, he0⟩
  refine ⟨?_, ?_, ?_⟩
  · obtain ⟨l, h1, h2⟩ := indexes_shape hp hb
    obtain ⟨j, hj, e, h3, h4⟩ := key l h2
    refine ⟨j, e, (h2 j).1 hj, h3, ?_⟩
    unfold evaluate
    rw [if_neg (by rw [volume_small hc]; omega), h1, Outcome.bind_ok, h4]
    rfl
  · obtain ⟨l, hl⟩ := exists_interleaving ls
    unfold EvaluateEnds
    simp only [if_neg (show ¬ volume A.shape ≥ 2 ^ 63 by rw [volume_small hc]; omega)]
    exact ⟨_, ls, hls, .inr ⟨l, hl, rfl⟩⟩
  · intro o ho
    unfold EvaluateEnds at ho
    rw [if_neg (by rw [volume_small hc]; omega)] at ho
    obtain ⟨ls', h1, h2⟩ := ho
    have : ls' = ls := forall₂_unique (fun _ _ _ h h' => by rw [h] at h'; injection h') h1 hls
    subst this
    rcases h2 with ⟨h2, _⟩ | ⟨l, hl, rfl⟩
    · exact absurd h2 hnr
    · obtain ⟨j, _, e, _, h4⟩ := key l fun i => by rw [hl.perm.mem_iff, hmem]
      rw [h4]
      rfl

/-- Without exceptions the two agree: the values are those of the array, whatever the order of events. -/
theorem evaluate_on_throws_partial [Inhabited α] (N : Nat) (A : Arr (R + 1) α) (s : Ix (R + 1)) (f : Ix (R + 1) → α)
    (hA : Denotes A s f) (hN : 0 < N) (hp : (∀ a, 0 < s a) ∨ R = 0) (hle : N ≤ s 0 ∨ R = 0)
    (hc : count s < 2 ^ 31) (hbN : N * s 0 < 2 ^ 64) :
    (∃ o, EvaluateEnds N A o) ∧ ∀ o, EvaluateEnds N A o → ∃ B, o = .returns B ∧ Denotes B s f := by
  obtain ⟨_, ⟨o, ho⟩, h⟩ := evaluate_on_partial N A s f hA hN hp hle hc hbN
  have hv : ¬ volume A.shape ≥ 2 ^ 63 := by rw [hA.1, volume_small hc]; omega
  unfold EvaluatesOn at ho h
  unfold EvaluateEnds
  rw [if_neg hv] at ho
  simp only [if_neg hv] at h ⊢
  refine ⟨?_, ?_⟩
  · obtain ⟨ls, h1, ⟨h2, _⟩ | ⟨l, hl, _⟩⟩ := ho
    · exact ⟨_, ls, h1, .inl ⟨h2, rfl⟩⟩
    · exact ⟨_, ls, h1, .inr ⟨l, hl, rfl⟩⟩
  · rintro o ⟨ls, h1, ⟨h2, rfl⟩ | ⟨l, hl, rfl⟩⟩
    · obtain ⟨B, hB, _⟩ := h .ub ⟨ls, h1, .inl ⟨h2, rfl⟩⟩
      cases hB
    · obtain ⟨B, hB, hd⟩ := h _ ⟨ls, h1, .inr ⟨l, hl, rfl⟩⟩
      exact ⟨B, by rw [hB]; rfl, hd⟩

/-- Five rows of three elements on three threads: one element throws, and the program ends. -/
example : (∃ o, EvaluateEnds 3 (⟨![5, 3], fun i => if i = ![4, 1] then .throws .runtimeError else .ok 7⟩ : Arr 2 Nat) o) ∧
    ∀ o, EvaluateEnds 3 (⟨![5, 3], fun i => if i = ![4, 1] then .throws .runtimeError else .ok 7⟩ : Arr 2 Nat) o → o = .terminates := by
  refine (evaluate_on_throws_violated 3 (⟨![5, 3], fun i => if i = ![4, 1] then .throws .runtimeError else .ok 7⟩ : Arr 2 Nat)
    (by decide) (.inl (by decide)) (.inl (by decide)) (by decide) (by decide) (fun i _ => ?_)
    ⟨![4, 1], .runtimeError, fun a => by revert a; decide, by simp⟩).2
  by_cases h : i = ![4, 1]
  · exact .inr ⟨_, if_pos h⟩
  · exact .inl ⟨_, if_neg h⟩

example : (∃ o, EvaluateEnds 3 (indexArray (![5, 3] : Ix 2)) o) ∧
    ∀ o, EvaluateEnds 3 (indexArray (![5, 3] : Ix 2)) o → ∃ B, o = .returns B ∧ Denotes B ![5, 3] id :=
  evaluate_on_throws_partial 3 (indexArray (![5, 3] : Ix 2)) ![5, 3] id ⟨rfl, fun _ _ => rfl⟩ (by decide)
    (.inl (by decide)) (.inl (by decide)) (by decide) (by decide)

/-! ### Trees mapped with `std::async` -/

theorem mem_leaves_node {c : Fin (2 ^ R) → Tree R α} {a : α} : a ∈ leaves (.node c) ↔ ∃ k, a ∈ leaves (c k) := by
  simp [leaves]

/-- A map with effects in which each call returns or throws returns or throws. -/
theorem map_returns_or_throws [Inhabited β] {P : σ → α → σ → β → Prop} {Q : σ → α → σ → Exn → Prop} {I : σ → Prop} (t : Tree R α)
    (h : ∀ s a, I s → a ∈ leaves t → (∃ s' b, P s a s' b ∧ I s') ∨ ∃ s' e, Q s a s' e) (s : σ) (hs : I s) :
    (∃ s' u, Pool.MapsTo P s t s' u ∧ I s') ∨ ∃ e, MapThrows P Q s t e := by
  induction t generalizing s with
  | leaf a =>
    rcases h s a hs (by simp [leaves]) with ⟨s', b, h1, h2⟩ | ⟨s', e, h1⟩
    · exact .inl ⟨s', .leaf b, .leaf h1, h2⟩
    · exact .inr ⟨e, .leaf h1⟩
  | node c ih =>
    have hc : ∀ k s, I s → (∃ s' u, Pool.MapsTo P s (c k) s' u ∧ I s') ∨ ∃ e, MapThrows P Q s (c k) e := fun k s hs =>
      ih k (fun s a hI ha => h s a hI (mem_leaves_node.2 ⟨k, ha⟩)) s hs
    by_cases hx : ∃ e, MapThrows P Q s (.node c) e
    · exact .inr hx
    left
    have hst : ∀ n : Nat, n ≤ 2 ^ R → ∃ (st : Nat → σ) (d : Fin (2 ^ R) → Tree R β), st 0 = s ∧ (∀ m ≤ n, I (st m)) ∧
        ∀ m : Fin (2 ^ R), m.1 < n → Pool.MapsTo P (st m) (c m) (st (m + 1)) (d m) := by
      intro n
      induction n with
      | zero => exact fun _ => ⟨fun _ => s, fun _ => .leaf default, rfl, fun _ _ => hs, fun m hm => absurd hm (by omega)⟩
      | succ n ihn =>
        intro hn
        obtain ⟨st, d, h0, hI, hm⟩ := ihn (by omega)
        rcases hc ⟨n, by omega⟩ (st n) (hI n le_rfl) with ⟨s', u, h1, h2⟩ | ⟨e, he⟩
        · refine ⟨fun m => if m = n + 1 then s' else st m, fun m => if m.1 = n then u else d m, ?_, ?_, ?_⟩
          · simpa using h0
          · intro m hm'
            by_cases hmn : m = n + 1
            · simpa [hmn] using h2
            · simpa [hmn] using hI m (by omega)
          · intro m hm'
            by_cases hmn : m.1 = n
            · obtain ⟨m, hm2⟩ := m
              simp only at hmn
              subst hmn
              simpa using h1
            · have := hm m (by omega)
              simpa [hmn, show m.1 ≠ n + 1 by omega] using this
        · refine absurd ⟨e, ?_⟩ hx
          have := MapThrows.node (P := P) (Q := Q) (c := c) (d := d) (e := e) id st ⟨n, by omega⟩ Function.bijective_id
            (fun m hm' => hm m hm') he
          rwa [h0] at this
    obtain ⟨st, d, h0, hI, hm⟩ := hst (2 ^ R) le_rfl
    refine ⟨st (2 ^ R), .node d, ?_, hI _ le_rfl⟩
    have := Pool.MapsTo.node (P := P) (c := c) (d := d) id st Function.bijective_id fun k => hm k k.2
    rwa [h0] at this

/-- What the tasks have to do with the function. -/
def Faithful (f : J → Outcome ρ) (s : Tasks J ρ) : Prop :=
  ∀ id o, s.results id = some o → ∃ j, s.jobs[id]? = some j ∧ o = f j

theorem Faithful.runs {f : J → Outcome ρ} {s s' : Tasks J ρ} (h : Relation.ReflTransGen (Tasks.Runs f) s s') :
    s'.jobs = s.jobs ∧ (Faithful f s → Faithful f s') := by
  induction h with
  | refl => exact ⟨rfl, id⟩
  | tail _ h1 ih =>
    cases h1 with
    | @run id j hj _ _ =>
      refine ⟨ih.1, fun h m o hm => ?_⟩
      by_cases e : m = id
      · subst e
        simp only [if_pos] at hm
        exact ⟨j, hj, (Option.some.inj hm).symm⟩
      · simp only [if_neg e] at hm
        exact ih.2 h m o hm

theorem related_leaves {t : Tree R α} {u : Tree R β} {Q : α → β → Prop} (h : Pool.Related Q t u) :
    ∀ b ∈ leaves u, ∃ a ∈ leaves t, Q a b := by
  induction h with
  | leaf h => intro b hb; simp only [leaves, List.mem_singleton] at hb ⊢; exact ⟨_, rfl, hb ▸ h⟩
  | node _ ih =>
    intro b hb
    obtain ⟨k, hk⟩ := mem_leaves_node.1 hb
    obtain ⟨a, ha, hq⟩ := ih k b hk
    exact ⟨a, mem_leaves_node.2 ⟨k, ha⟩, hq⟩

theorem launched {f : J → Outcome ρ} {t : Tree R J} {s₁ : Tasks J ρ} {futures : Tree R Nat}
    (h : Pool.MapsTo (asyncLaunch f) ⟨[], fun _ => none⟩ t s₁ futures) :
    Faithful f s₁ ∧ Pool.Related (fun j id => s₁.jobs[id]? = some j) t futures := by
  obtain ⟨h1, _, h3⟩ := h.related (le := fun s s' => s.jobs <+: s'.jobs) (I := Faithful f)
    (Q := fun s j id => s.jobs[id]? = some j) (fun s => List.prefix_refl _) (fun a b c (h : a.jobs <+: b.jobs) (h' : b.jobs <+: c.jobs) => h.trans h') (by
      rintro s j s' id hI ⟨s₂, hr, rfl, rfl⟩
      have hf := Faithful.runs hr
      refine ⟨?_, ?_, ?_⟩
      · intro m o hm
        obtain ⟨j', h1, h2⟩ := hf.2 hI m o hm
        refine ⟨j', ?_, h2⟩
        have hlt : m < s₂.jobs.length := by
          by_contra hge
          rw [List.getElem?_eq_none (by omega)] at h1
          cases h1
        simp only [List.getElem?_append_left hlt, h1]
      · rw [← hf.1]; exact List.prefix_append _ _
      · simp) (by
      rintro s s' j id ⟨l, hl⟩ hj
      have hlt : id < s.jobs.length := by
        by_contra hge
        rw [List.getElem?_eq_none (by omega)] at hj
        cases hj
      rw [← hl, List.getElem?_append_left hlt, hj]) (by intro id o h; cases h)
  exact ⟨h1, h3⟩

theorem got {f : J → Outcome ρ} {s₁ s' : Tasks J ρ} {futures : Tree R Nat} {u : Tree R ρ} (hf : Faithful f s₁)
    (h : Pool.MapsTo (asyncGet f) s₁ futures s' u) :
    (Faithful f s' ∧ s'.jobs = s₁.jobs) ∧ Pool.Related (fun id r => ∀ j, s₁.jobs[id]? = some j → f j = .ok r) futures u := by
  obtain ⟨h1, _, h3⟩ := h.related (le := fun _ _ => True) (I := fun s => Faithful f s ∧ s.jobs = s₁.jobs)
    (Q := fun _ id r => ∀ j, s₁.jobs[id]? = some j → f j = .ok r) (fun _ => trivial) (fun _ _ _ _ _ => trivial) (by
      rintro s id s' r ⟨hI, hj⟩ ⟨hr, hg⟩
      have h' := Faithful.runs hr
      refine ⟨⟨h'.2 hI, h'.1.trans hj⟩, trivial, fun j h2 => ?_⟩
      obtain ⟨j', h3, h4⟩ := h'.2 hI _ _ hg
      rw [h'.1, hj, h2] at h3
      rw [Option.some.inj h3, ← h4]) (fun _ _ _ _ _ h => h) ⟨hf, rfl⟩
  exact ⟨h1, h3⟩

theorem related_map {f : J → Outcome ρ} {t : Tree R J} {futures : Tree R Nat} {u : Tree R ρ} {jobs : List J}
    (h1 : Pool.Related (fun j id => jobs[id]? = some j) t futures)
    (h2 : Pool.Related (fun id r => ∀ j, jobs[id]? = some j → f j = .ok r) futures u) : u.map Outcome.ok = t.map f := by
  induction h1 generalizing u with
  | leaf h =>
    cases h2 with
    | leaf h2 => simp only [Verif.Tree.Tree.map]; rw [h2 _ h]
  | node _ ih =>
    cases h2 with
    | node h2 => simp only [Verif.Tree.Tree.map]; congr 1; funext k; exact ih k (h2 k)

theorem rethrown {f : J → Outcome ρ} {s₁ : Tasks J ρ} {futures : Tree R Nat} {e : Exn}
    (h : MapThrows (asyncGet f) (asyncRethrow f) s₁ futures e) :
    Faithful f s₁ → ∃ id ∈ leaves futures, ∃ j, s₁.jobs[id]? = some j ∧ f j = .throws e := by
  induction h with
  | @leaf s a s' e h =>
    intro hf
    have h' := Faithful.runs h.1
    obtain ⟨j, h1, h2⟩ := h'.2 hf _ _ h.2
    rw [h'.1] at h1
    exact ⟨a, by simp [leaves], j, h1, h2.symm⟩
  | @node c d e o st k ho hm _ ih =>
    intro hf
    have hst : ∀ m : Nat, m ≤ k → Faithful f (st m) ∧ (st m).jobs = (st 0).jobs := by
      intro m
      induction m with
      | zero => exact fun _ => ⟨hf, rfl⟩
      | succ m ihm =>
        intro hmk
        obtain ⟨h1, h2⟩ := ihm (by omega)
        obtain ⟨⟨h3, h4⟩, _⟩ := got h1 (hm ⟨m, by omega⟩ (Fin.lt_def.2 (by simp; omega)))
        exact ⟨h3, h4.trans h2⟩
    obtain ⟨h1, h2⟩ := hst k le_rfl
    obtain ⟨id, hid, j, h3, h4⟩ := ih h1
    exact ⟨id, mem_leaves_node.2 ⟨_, hid⟩, j, h2 ▸ h3, h4⟩

theorem map_eq_leaves {f : J → Outcome ρ} {t : Tree R J} {u : Tree R ρ} (h : u.map Outcome.ok = t.map f) :
    ∀ j ∈ leaves t, ∃ r, f j = .ok r := by
  induction t generalizing u with
  | leaf a =>
    intro j hj
    simp only [leaves, List.mem_singleton] at hj
    subst hj
    cases u with
    | leaf b => simp only [Verif.Tree.Tree.map, Verif.Tree.Tree.leaf.injEq] at h; exact ⟨b, h.symm⟩
    | node d => simp [Verif.Tree.Tree.map] at h
  | node c ih =>
    intro j hj
    obtain ⟨k, hk⟩ := mem_leaves_node.1 hj
    cases u with
    | leaf b => simp [Verif.Tree.Tree.map] at h
    | node d =>
      simp only [Verif.Tree.Tree.map, Verif.Tree.Tree.node.injEq] at h
      exact ih k (congrFun h k) j hk

/-- **C133.** A tree mapped with `std::async`, in whatever order the tasks run, on threads of their own or
deferred: the map comes to an end; if it returns a tree then this is the tree mapped on one thread; if it throws
then an exception of one of the leaves; and it throws if and only if one of the leaves does. -/
theorem async_map [Inhabited ρ] (f : J → Outcome ρ) (t : Tree R J)
    (hf : ∀ j ∈ leaves t, (∃ r, f j = .ok r) ∨ ∃ e, f j = .throws e) :
    (∃ o, AsyncMaps f t o) ∧
    (∀ u, AsyncMaps f t (.returns u) → u.map Outcome.ok = t.map f) ∧
    (∀ e, AsyncMaps f t (.throws e) → ∃ j ∈ leaves t, f j = .throws e) ∧
    ((∃ j ∈ leaves t, ∃ e, f j = .throws e) ↔ ∃ e, AsyncMaps f t (.throws e)) ∧
    ((∃ j ∈ leaves t, ∃ e, f j = .throws e) ↔ ∀ u, ¬ AsyncMaps f t (.returns u)) := by
  have hret : ∀ u, AsyncMaps f t (.returns u) → u.map Outcome.ok = t.map f := by
    rintro u ⟨s₁, fut, s', h1, h2⟩
    obtain ⟨hI, hr⟩ := launched h1
    exact related_map hr (got hI h2).2
  have hthr : ∀ e, AsyncMaps f t (.throws e) → ∃ j ∈ leaves t, f j = .throws e := by
    rintro e ⟨s₁, fut, h1, h2⟩
    obtain ⟨hI, hr⟩ := launched h1
    obtain ⟨id, hid, j, h3, h4⟩ := rethrown h2 hI
    obtain ⟨j', hj', h5⟩ := related_leaves hr id hid
    rw [h3] at h5
    exact ⟨j, Option.some.inj h5 ▸ hj', h4⟩
  have hsome : (∃ u, AsyncMaps f t (.returns u)) ∨ ∃ e, AsyncMaps f t (.throws e) := by
    obtain ⟨s₁, fut, h1, _⟩ | ⟨e, he⟩ := map_returns_or_throws (Q := fun _ _ _ _ => False) (P := asyncLaunch f)
      (I := fun _ => True) t (fun s j _ _ => .inl ⟨_, _, ⟨s, .refl, rfl, rfl⟩, trivial⟩) ⟨[], fun _ => none⟩ trivial
    · obtain ⟨hI, hr⟩ := launched h1
      rcases map_returns_or_throws (P := asyncGet f) (Q := asyncRethrow f)
        (I := fun s => Faithful f s ∧ s.jobs = s₁.jobs) fut (by
          rintro s id ⟨hs, hj⟩ hid
          obtain ⟨j, hjt, hid'⟩ := related_leaves hr id hid
          rw [← hj] at hid'
          have hrun : ∃ s', Relation.ReflTransGen (Tasks.Runs f) s s' ∧ s'.results id = some (f j) := by
            cases hres : s.results id with
            | none => exact ⟨_, .single (.run hid' hres (hf j hjt)), if_pos rfl⟩
            | some o =>
              obtain ⟨j', h2, rfl⟩ := hs id o hres
              rw [hid'] at h2
              exact ⟨s, .refl, by rw [hres, Option.some.inj h2]⟩
          obtain ⟨s', h2, h3⟩ := hrun
          have h4 := Faithful.runs h2
          rcases hf j hjt with ⟨r, hr⟩ | ⟨e, he⟩
          · exact .inl ⟨s', r, ⟨h2, by rw [h3, hr]⟩, h4.2 hs, h4.1.trans hj⟩
          · exact .inr ⟨s', e, h2, by rw [h3, he]⟩) s₁ ⟨hI, rfl⟩ with ⟨s', u, h2, _⟩ | ⟨e, h2⟩
      · exact .inl ⟨u, s₁, fut, s', h1, h2⟩
      · exact .inr ⟨e, s₁, fut, h1, h2⟩
    · exfalso
      have : ∀ (t : Tree R J) s, ¬ MapThrows (asyncLaunch f) (fun _ _ _ _ => False) s t e := by
        intro t s h
        clear he
        induction h with
        | leaf h => exact h
        | node _ _ _ _ _ _ ih => exact ih
      exact this _ _ he
  have hno : (∃ j ∈ leaves t, ∃ e, f j = .throws e) → ∀ u, ¬ AsyncMaps f t (.returns u) := by
    rintro ⟨j, hj, e, he⟩ u hu
    obtain ⟨r, hr⟩ := map_eq_leaves (hret u hu) j hj
    rw [he] at hr
    cases hr
  refine ⟨?_, hret, hthr, ⟨fun h => ?_, ?_⟩, ⟨hno, fun h => ?_⟩⟩
  · rcases hsome with ⟨u, h⟩ | ⟨e, h⟩ <;> exact ⟨_, h⟩
  · rcases hsome with ⟨u, hu⟩ | h'
    · exact absurd hu (hno h u)
    · exact h'
  · rintro ⟨e, he⟩
    obtain ⟨j, hj, h⟩ := hthr e he
    exact ⟨j, hj, e, h⟩
  · rcases hsome with ⟨u, hu⟩ | ⟨e, he⟩
    · exact absurd hu (h u)
    · obtain ⟨j, hj, h⟩ := hthr e he
      exact ⟨j, hj, e, h⟩

/-- Four leaves, two of which throw: the map throws one of the two exceptions. -/
example : ∃ e, AsyncMaps (R := 2) (fun j : Nat => if j = 1 then Outcome.throws .runtimeError else if j = 2 then .throws .logicError else .ok j)
    (.node fun k => .leaf k) (.throws e) := by
  refine (async_map _ _ fun j _ => ?_).2.2.2.1.1 ⟨1, ?_, .runtimeError, rfl⟩
  · by_cases h1 : j = 1
    · exact .inr ⟨_, if_pos h1⟩
    · by_cases h2 : j = 2
      · exact .inr ⟨.logicError, by simp [h2]⟩
      · exact .inl ⟨j, by simp [h1, h2]⟩
  · exact mem_leaves_node.2 ⟨1, by simp [leaves]⟩

end Verif.Par

namespace Verif.Pool
open Verif Verif.Tree
variable {J ρ : Type}

/-! ### The thread pool -/

theorem finished_ok {f : J → Outcome ρ} {s s' : Pool J ρ} {tr tr₀ : List (Ev J)} (h : Exec f s tr s') :
    Inv f tr₀ s → ∀ id ∈ finishes tr, ∃ j r, s'.jobs[id]? = some j ∧ f j = .ok r := by
  induction h generalizing tr₀ with
  | refl s => intro _ id hid; simp [finishes] at hid
  | @cons s e s1 tr s'' h1 h2 ih =>
    intro hi id hid
    have hi1 := inv_step hi h1
    rw [show e :: tr = [e] ++ tr from rfl] at hid
    rw [show finishes ([e] ++ tr) = finishes [e] ++ finishes tr from List.filterMap_append, List.mem_append] at hid
    rcases hid with hid | hid
    · cases e <;> simp only [finishes, List.filterMap_cons, List.filterMap_nil, List.not_mem_nil] at hid
      rename_i i id'
      rw [List.mem_singleton] at hid
      subst hid
      simp only [step] at h1
      split at h1
      · cases hj : s.jobs[id]? with
        | none => simp [hj] at h1
        | some j =>
          simp only [hj, Option.some.injEq] at h1
          rw [Outcome.bind_eq_ok] at h1
          obtain ⟨r, hr, hs⟩ := h1
          injection hs with hs
          have e1 := jobs_prefix h2 hi1
          have hjobs : s1.jobs = s.jobs := by rw [← hs]; rfl
          have hlt : id < s.jobs.length := by
            by_contra hge
            rw [List.getElem?_eq_none (by omega)] at hj
            cases hj
          refine ⟨j, r, ?_, hr⟩
          rw [e1, hjobs, List.getElem?_append_left hlt, hj]
      · cases h1
    · exact ih hi1 id hid

/-- **C133, violated.** A job whose function throws, given to a thread pool: whoever waits for it never gets
anything, neither a value nor the exception; the worker that runs it ends the program; and there is no way
around this: the workers take a bounded number of steps and do not come to rest before that. -/
theorem pool_throws_violated {f : J → Outcome ρ} {n : Nat} {tr : List (Ev J)} {s : Pool J ρ} {id : Nat} {j : J} {e : Exn}
    (h : Exec f (.construct n) tr s) (hj : s.jobs[id]? = some j) (he : f j = .throws e) :
    (∀ s' r, ¬ get f s id s' r) ∧
    (∀ tr' s' i, Exec f s tr' s' → s'.threads[i]? = some (.run id) → step f s' (.finish i id) = some (.throws e)) ∧
    (s.stop = false → s.threads ≠ [] → (∀ k ∈ enqueues tr, (∃ r, f k = .ok r) ∨ ∃ x, f k = .throws x) →
      ∀ tr' s', Exec f s tr' s' → (∀ x ∈ tr', x.ofWorker = true) →
        tr'.length ≤ 4 * s.pending.length + 6 * s.threads.length ∧
        ((∃ x : Ev J, x.ofWorker = true ∧ ∃ s'', step f s' x = some (.ok s'')) ∨
          ∃ i id' x, step f s' (.finish i id') = some (.throws x))) := by
  have hi := exec_inv h
  have hlt : id < s.jobs.length := by
    by_contra hge
    rw [List.getElem?_eq_none (by omega)] at hj
    cases hj
  have hlater : ∀ {tr' s'}, Exec f s tr' s' → s'.jobs[id]? = some j := fun h' => by
    rw [jobs_prefix h' hi, List.getElem?_append_left hlt, hj]
  refine ⟨?_, ?_, ?_⟩
  · rintro s' r ⟨tr', h1, h2⟩
    have hi' := inv_exec h1 hi
    obtain ⟨_, j', h3, h4⟩ := (hi'.res id r).1 h2
    rw [hlater h1] at h3
    rw [← Option.some.inj h3, he] at h4
    cases h4
  · intro tr' s' i h1 h2
    simp only [step, h2, if_true, hlater h1, he]
    rfl
  · intro hstop hne hf tr' s' h' hw
    have hb := workers_bound h' hw
    have hi' := exec_inv (h.append h')
    refine ⟨by have := work_le s; omega, ?_⟩
    by_cases hs : ∀ x : Ev J, x.ofWorker = true → step f s' x = none
    · exfalso
      have hall := stuck_workers hi' hs
      have hst : s'.stop = false := by rw [hb.2.1, hstop]
      have hblk : ∀ p ∈ s'.threads, p = .blocked := by
        intro p hp
        rcases hall p hp with e | e
        · exact e
        · exact absurd (e ▸ hp) (hi'.live hst)
      have hp : s'.pending = [] := by
        by_contra hpn
        have hne' : s'.threads ≠ [] := by
          intro e
          rw [e] at hb
          exact hne (List.length_eq_zero_iff.1 hb.2.2.symm)
        obtain ⟨p, hp, hnb⟩ := hi'.wake hst hpn hne'
        exact hnb (hblk p hp)
      have hmem : id ∈ starts (tr ++ tr') := by
        have := hi'.fifo
        rw [hp, List.append_nil] at this
        rw [this, List.mem_range, jobs_prefix h' hi, List.length_append]
        omega
      have hfin : id ∈ finishes (tr ++ tr') := by
        have := hi'.fins
        rw [(no_jobs_held hall).2, List.append_nil] at this
        exact this.symm.subset hmem
      obtain ⟨j', r, h1, h2⟩ := finished_ok (h.append h') (inv_construct f n) id hfin
      rw [hlater h'] at h1
      rw [← Option.some.inj h1, he] at h2
      cases h2
    · simp only [not_forall] at hs
      obtain ⟨x, hx, hn⟩ := hs
      cases ho : step f s' x with
      | none => exact absurd ho hn
      | some o =>
        rcases step_ok hi' ho with ⟨s'', rfl⟩ | ⟨i, id', k, rfl, hk, hno, rfl⟩
        · exact .inl ⟨x, hx, s'', ho⟩
        · right
          have hk' : k ∈ enqueues tr := by
            have e1 : s'.jobs = s.jobs := by
              have : enqueues tr' = [] := closing_enqueues fun x hx => by
                have := hw x hx
                cases x <;> simp_all [Ev.closing, Ev.ofWorker]
              rw [jobs_prefix h' hi, this, List.append_nil]
            rw [e1, hi.jobs] at hk
            exact hk
          rcases hf k hk' with ⟨r, hr⟩ | ⟨y, hy⟩
          · exact absurd hr (hno r)
          · exact ⟨i, id', y, by rw [ho, hy]; rfl⟩

/-- **C133, violated.** A tree one leaf of which throws cannot be mapped on a pool: the map never returns, and it
does not throw either, since the values waited for are never given an exception. -/
theorem map_on_pool_throws_violated {R : Nat} {f : J → Outcome ρ} {n : Nat} {tr : List (Ev J)} {s : Pool J ρ} {t : Tree R J}
    (h : Exec f (.construct n) tr s) (ht : ∃ j ∈ leaves t, ∃ e, f j = .throws e) : ∀ s' u, ¬ MapsOnPool f s t s' u := by
  intro s' u hm
  obtain ⟨j, hj, e, he⟩ := ht
  obtain ⟨r, hr⟩ := Par.map_eq_leaves (map_on_pool h hm) j hj
  rw [he] at hr
  cases hr

/-- A pool of two workers with two jobs, the second of which throws and is being run. -/
example : ∃ tr s, Exec (fun j : Nat => if j = 7 then Outcome.throws .runtimeError else .ok (j * j)) (.construct 2) tr s ∧
    s.stop = false ∧ s.threads ≠ [] ∧ s.jobs[1]? = some 7 ∧ s.threads[1]? = some (.run 1) ∧
    (∀ s' r, ¬ get (fun j : Nat => if j = 7 then Outcome.throws .runtimeError else .ok (j * j)) s 1 s' r) ∧
    step (fun j : Nat => if j = 7 then Outcome.throws .runtimeError else .ok (j * j)) s (.finish 1 1) = some (.throws .runtimeError) := by
  have h : Exec (fun j : Nat => if j = 7 then Outcome.throws .runtimeError else .ok (j * j)) (.construct 2)
      [.store, .notify, .ret, .spawn, .spawn, .spawn, .enqueue 5 none, .enqueue 7 none, .lock 0, .start 0 0, .lock 1, .start 1 1] _ :=
    .cons rfl (.cons rfl (.cons rfl (.cons rfl (.cons rfl (.cons rfl (.cons rfl (.cons rfl (.cons rfl
      (.cons rfl (.cons rfl (.cons rfl (.refl _))))))))))))
  have := pool_throws_violated (id := 1) (j := 7) (e := .runtimeError) h rfl rfl
  exact ⟨_, _, h, rfl, by simp [Pool.construct, Pool.goto], rfl, rfl, this.1, this.2.1 _ _ _ (.refl _) rfl⟩

/-- A tree of four leaves one of which throws, on a pool of one worker. -/
example : ∃ tr s, Exec (fun j : Nat => if j = 2 then Outcome.throws .runtimeError else .ok (j * j)) (.construct 1) tr s ∧
    ∀ s' u, ¬ MapsOnPool (R := 2) (fun j : Nat => if j = 2 then Outcome.throws .runtimeError else .ok (j * j)) s
      (.node fun k => .leaf k) s' u := by
  have h : Exec (fun j : Nat => if j = 2 then Outcome.throws .runtimeError else .ok (j * j)) (.construct 1)
      [.store, .notify, .ret, .spawn, .spawn] _ :=
    .cons rfl (.cons rfl (.cons rfl (.cons rfl (.cons rfl (.refl _)))))
  exact ⟨_, _, h, map_on_pool_throws_violated h ⟨2, Par.mem_leaves_node.2 ⟨2, by simp [leaves]⟩, .runtimeError, rfl⟩⟩

end Verif.Pool
