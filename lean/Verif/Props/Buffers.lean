import Verif.Lemmas.BufferSteps

/-!
# C129: the memory of arrays

Programs that make, move, assign, write, reshape, share and destroy arrays, in any order and number, never use memory that is not theirs, never delete it twice and never lose it;
and every array has the values that it would have if each had its own list of values.
-/

namespace Verif.Buffers

variable {α : Type}

private theorem inv_empty : Inv (State.empty : State α) .empty (fun _ => none) where
  mem := ⟨fun _ _ => rfl, fun _ _ h => (by cases h), fun _ _ _ _ _ h => (by cases h), fun _ _ h => (by cases h), fun _ _ => rfl⟩
  var _ := rfl
  sizes _ := rfl
  gone _ _ := rfl
  here _ _ _ h := by cases h
  count _ _ h := by cases h
  fresh _ _ := rfl

private theorem inv_run (ops : List (Op α)) : ∀ {st : State α} {V L}, Inv st V L → AllowedAll V ops → ∃ st' L', run ops st = .ok st' ∧ Inv st' (effects V ops) L' := by
  induction ops with
  | nil => exact fun H _ => ⟨_, _, rfl, H⟩
  | cons op ops ih =>
    rintro st V L H ⟨ha, hr⟩
    obtain ⟨st', L', hs, H'⟩ := H.step op ha
    obtain ⟨st'', L'', hr', H''⟩ := ih H' hr
    exact ⟨st'', L'', by simp only [run, hs, Outcome.bind_ok]; exact hr', H''⟩

private theorem inv_reach {ops : List (Op α)} (h : AllowedAll .empty ops) {st} (hr : run ops .empty = .ok st) : ∃ L, Inv st (effects .empty ops) L := by
  obtain ⟨st', L, hr', H⟩ := inv_run ops inv_empty h
  rw [hr] at hr'; cases hr'
  exact ⟨L, H⟩

/-- A program with arrays has no undefined behaviour: nothing is deleted twice, nothing is used after it is deleted. -/
theorem run_ok (ops : List (Op α)) (h : AllowedAll .empty ops) : ∃ st, run ops (State.empty : State α) = .ok st := by
  obtain ⟨st, _, hr, _⟩ := inv_run ops inv_empty h
  exact ⟨st, hr⟩

/-- After any program, each array has its size and its values, and reading beyond the values is undefined behaviour. -/
theorem run_values (ops : List (Op α)) (h : AllowedAll .empty ops) (st : State α) (hr : run ops .empty = .ok st) :
    (∀ x n l, (effects .empty ops).unique x = some (n, l) → st.sizes x = some n ∧ ∀ i, st.read x i = l[i]?.elim .ub .ok)
      ∧ ∀ s n l, (effects .empty ops).shared s = some (n, l) → ∀ i, st.readShared s i = l[i]?.elim .ub .ok := by
  obtain ⟨L, H⟩ := inv_reach h hr
  constructor
  · intro x n l hv
    obtain ⟨b, k1, k2, k3, k4, k5⟩ := H.array (x := x) (by rw [hv]; simp)
    rw [hv] at k4
    have hg : (effects .empty ops).get x = (n, l) := (Option.some.inj k4).symm
    rw [hg] at k1 k5
    refine ⟨by rw [H.sizes, hv]; rfl, fun i => ?_⟩
    simp only [State.read, k1, Outcome.bind_ok, k5.read]
  · intro s n l hv i
    obtain ⟨c, b, k1, k2, k3, k4, k5, k6⟩ := H.sharedArray (s := s) (by rw [hv]; simp)
    rw [hv] at k5
    have hg : (effects .empty ops).getShared s = (n, l) := (Option.some.inj k5).symm
    rw [hg] at k1 k6
    simp only [State.readShared, k1, Outcome.bind_ok, k6.read]

/-- And the next operation throws exactly if the sizes differ. -/
theorem step_throws (ops : List (Op α)) (h : AllowedAll .empty ops) (st : State α) (hr : run ops .empty = .ok st) (op : Op α) (ha : Allowed (effects .empty ops) op) :
    ∃ st', step op st = .ok ((effect (effects .empty ops) op).1, st') := by
  obtain ⟨L, H⟩ := inv_reach h hr
  obtain ⟨st', _, hs, _⟩ := H.step op ha
  exact ⟨st', hs⟩

/-- Nothing is lost: every block in use has the values of an array that exists. -/
theorem run_owned (ops : List (Op α)) (h : AllowedAll .empty ops) (st : State α) (hr : run ops .empty = .ok st) (a : Nat) (l : List α) (ha : st.heap.blocks a = some l) :
    (∃ x n, (effects .empty ops).unique x = some (n, l)) ∨ ∃ s n, (effects .empty ops).shared s = some (n, l) := by
  obtain ⟨L, H⟩ := inv_reach h hr
  obtain ⟨p, b, hb, hm⟩ := H.mem.owned a l ha
  obtain ⟨l', hl', h1, h2, h3⟩ := H.mem.holds hb
  have : l' = l := by have := h3 a hm; rw [ha] at this; exact (Option.some.inj this).symm
  subst this
  cases p with
  | var x =>
    rw [H.var] at hl'
    obtain ⟨⟨n, l⟩, hv, rfl⟩ := Option.map_eq_some_iff.1 hl'
    exact .inl ⟨x, n, hv⟩
  | held c =>
    obtain ⟨k1, k2⟩ := H.count c l' hl'
    have : {s | ∃ n, st.shared s = some (n, c)}.Nonempty := by
      rw [← Set.encard_pos, k2]
      exact_mod_cast k1
    obtain ⟨s, n, hs⟩ := this
    obtain ⟨l, hl, hv⟩ := H.here s n c hs
    rw [hl'] at hl; cases hl
    exact .inr ⟨s, n, hv⟩

/-- In particular, if no array is left then no memory is. -/
theorem no_leak (ops : List (Op α)) (h : AllowedAll .empty ops) (st : State α) (hr : run ops .empty = .ok st)
    (hu : ∀ x, (effects .empty ops).unique x = none) (hs : ∀ s, (effects .empty ops).shared s = none) (a : Nat) : st.heap.blocks a = none := by
  cases ha : st.heap.blocks a with
  | none => rfl
  | some l =>
    rcases run_owned ops h st hr a l ha with ⟨x, n, hx⟩ | ⟨s, n, hx⟩
    · rw [hu] at hx; cases hx
    · rw [hs] at hx; cases hx

private theorem shared_keeps (V : Values α) (op : Op α) (ha : Allowed V op) {s a} (hs : V.shared s = some a) (hop : op ≠ .drop s) : (effect V op).2.shared s = some a := by
  have key : ∀ t a', V.shared t = none → (Function.update V.shared t a') s = some a := fun t a' ht => by
    rw [Function.update_of_ne]
    · exact hs
    · rintro rfl; rw [ht] at hs; cases hs
  cases op with
  | make | move | assign | write | destroy => exact hs
  | reshapeCopy | reshapeMove => simp only [effect]; split_ifs <;> exact hs
  | shareCopy t x => simp only [effect]; split_ifs; exacts [key _ _ ha.1, hs]
  | shareMove t x => simp only [effect]; split_ifs; exacts [key _ _ ha.1, hs]
  | copy t u => exact key _ _ ha.1
  | reshape t u n => simp only [effect]; split_ifs; exacts [key _ _ ha.1, hs]
  | drop t =>
    show Function.update V.shared t none s = _
    rw [Function.update_of_ne]
    · exact hs
    · rintro rfl; exact hop rfl

private theorem shared_keeps_all (ops : List (Op α)) : ∀ (V : Values α), AllowedAll V ops → ∀ {s a}, V.shared s = some a → .drop s ∉ ops → (effects V ops).shared s = some a := by
  induction ops with
  | nil => exact fun V _ s a hs _ => hs
  | cons op ops ih =>
    rintro V ⟨ha, hr⟩ s a hs hd
    simp only [List.mem_cons, not_or] at hd
    exact ih _ hr (shared_keeps V op ha hs (Ne.symm hd.1)) hd.2

private theorem run_append (p q : List (Op α)) : ∀ st : State α, run (p ++ q) st = (run p st).bind (run q) := by
  induction p with
  | nil => exact fun st => rfl
  | cons op p ih =>
    intro st
    simp only [List.cons_append, run]
    cases step op st with
    | ok r => exact ih r.2
    | _ => rfl

private theorem effects_append (p q : List (Op α)) : ∀ V : Values α, effects V (p ++ q) = effects (effects V p) q := by
  induction p with
  | nil => exact fun V => rfl
  | cons op p ih => exact fun V => ih _

private theorem allowed_append (p q : List (Op α)) : ∀ V : Values α, AllowedAll V (p ++ q) ↔ AllowedAll V p ∧ AllowedAll (effects V p) q := by
  induction p with
  | nil => exact fun V => by simp [AllowedAll, effects]
  | cons op p ih => intro V; simp only [List.cons_append, AllowedAll, effects, ih, and_assoc]

/-- A shared array never changes: whatever the program does after it was made, as long as it exists it reads the same. -/
theorem shared_constant (p q : List (Op α)) (h : AllowedAll .empty (p ++ q)) (st st' : State α) (hp : run p .empty = .ok st) (hq : run (p ++ q) .empty = .ok st') (s : Nat)
    (hs : (effects .empty p).shared s ≠ none) (hd : .drop s ∉ q) (i : Nat) : st'.readShared s i = st.readShared s i := by
  have h' := (allowed_append p q _).1 h
  obtain ⟨⟨n, l⟩, hv⟩ := Option.ne_none_iff_exists'.1 hs
  have hv' := shared_keeps_all q _ h'.2 hv hd
  rw [← effects_append] at hv'
  rw [(run_values p h'.1 st hp).2 s n l hv i, (run_values _ h st' hq).2 s n l hv' i]

private theorem shared_full_step (V : Values α) (op : Op α) (ha : Allowed V op) (hV : ∀ s n l, V.shared s = some (n, l) → n = l.length) :
    ∀ s n l, (effect V op).2.shared s = some (n, l) → n = l.length := by
  have key : ∀ t (a : Nat × List α), a.1 = a.2.length → ∀ s n l, Function.update V.shared t (some a) s = some (n, l) → n = l.length := by
    intro t a h s n l hs
    by_cases e : s = t
    · subst e; rw [Function.update_self] at hs; cases hs; exact h
    · rw [Function.update_of_ne e] at hs; exact hV s n l hs
  cases op with
  | make | move | assign | write | destroy => exact hV
  | reshapeCopy | reshapeMove => simp only [effect]; split_ifs <;> exact hV
  | shareCopy t x => simp only [effect]; split_ifs with h; exacts [key _ _ h, hV]
  | shareMove t x => simp only [effect]; split_ifs with h; exacts [key _ _ h, hV]
  | copy t u =>
    obtain ⟨⟨n, l⟩, hu⟩ := Option.ne_none_iff_exists'.1 ha.2
    exact key t _ (by rw [Values.getShared, hu]; exact hV u n l hu)
  | reshape t u n => simp only [effect]; split_ifs with h; exacts [key _ _ h, hV]
  | drop t =>
    intro s n l hs
    by_cases e : s = t
    · subst e; simp [effect, Values.putShared] at hs
    · simp only [effect, Values.putShared, Function.update_of_ne e] at hs; exact hV s n l hs

/-- A shared array always has all its elements: every offset below its size can be read. -/
theorem shared_full (ops : List (Op α)) (h : AllowedAll .empty ops) (st : State α) (hr : run ops .empty = .ok st) (s n c : Nat) (hs : st.shared s = some (n, c)) (i : Nat) (hi : i < n) :
    ∃ v, st.readShared s i = .ok v := by
  obtain ⟨L, H⟩ := inv_reach h hr
  obtain ⟨l, _, hv⟩ := H.here s n c hs
  have full : ∀ (ops : List (Op α)) (V : Values α), AllowedAll V ops → (∀ s n l, V.shared s = some (n, l) → n = l.length) → ∀ s n l, (effects V ops).shared s = some (n, l) → n = l.length := by
    intro ops
    induction ops with
    | nil => exact fun V _ hV => hV
    | cons op ops ih => exact fun V ha hV => ih _ ha.2 (shared_full_step V op ha.1 hV)
  have hn := full ops .empty h (fun _ _ _ h => by cases h) s n l hv
  rw [(run_values ops h st hr).2 s n l hv i, List.getElem?_eq_getElem (by omega)]
  exact ⟨_, rfl⟩

/-- But an array that owns its memory need not: after it was moved from — also if the reshape it was moved to threw, and also after it was assigned to itself — it still has its
size, and reading its elements is undefined behaviour. -/
theorem unique_full_violated (v : α) :
    ∃ st : State α, run [.make 0 6 v, .reshapeMove 1 0 4] .empty = .ok st ∧ st.sizes 0 = some 6 ∧ st.sizes 1 = none ∧ st.read 0 0 = .ub
      ∧ ∃ st : State α, run [.make 0 6 v, .assign 0 0] .empty = .ok st ∧ st.sizes 0 = some 6 ∧ st.read 0 0 = .ub := by
  have a1 : AllowedAll .empty [.make 0 6 v, .reshapeMove 1 0 4] := ⟨rfl, ⟨rfl, by simp [effect, Values.put]⟩, trivial⟩
  have a2 : AllowedAll .empty [.make 0 6 v, .assign 0 0] := ⟨rfl, ⟨by simp [effect, Values.put], by simp [effect, Values.put]⟩, trivial⟩
  obtain ⟨st, h1⟩ := run_ok _ a1
  obtain ⟨st', h2⟩ := run_ok _ a2
  have e1 := (run_values _ a1 st h1).1 0 6 [] (by simp [effects, effect, Values.put, Values.get, Function.update_apply])
  have e2 := (run_values _ a2 st' h2).1 0 6 [] (by simp [effects, effect, Values.put, Values.get, Function.update_apply])
  obtain ⟨L, H⟩ := inv_reach a1 h1
  refine ⟨st, h1, e1.1, ?_, e1.2 0, st', h2, e2.1, e2.2 0⟩
  rw [H.sizes]
  simp [effects, effect, Values.put, Values.get, Values.empty, Function.update_apply]

private def Full (M : Set Nat) (V : Values α) : Prop := ∀ x n l, x ∉ M → V.unique x = some (n, l) → n = l.length

private theorem full_step (M : Set Nat) (V : Values α) (op : Op α) (ha : Allowed V op) (hc : Careful M op) (hV : Full M V) : Full (movedFrom M op) (effect V op).2 := by
  -- a new array at `x`
  have put : ∀ x (a : Nat × List α) (N : Set Nat), N = M \ {x} → a.1 = a.2.length → Full N (V.put x (some a)) := by
    rintro x a N rfl h z n l hz hv
    by_cases e : z = x
    · subst e; simp only [Values.put, Function.update_self] at hv; cases hv; exact h
    · simp only [Values.put, Function.update_of_ne e] at hv
      exact hV z n l (fun h => hz ⟨h, e⟩) hv
  -- what is moved from does not count
  have take : ∀ y (a : Option (Nat × List α)) (N : Set Nat) (W : Values α), Full N W → Full (insert y N) (W.put y a) := by
    intro y a N W hW z n l hz hv
    have e : z ≠ y := fun e => hz (e ▸ Set.mem_insert _ _)
    simp only [Values.put, Function.update_of_ne e] at hv
    exact hW z n l (fun h => hz (Set.mem_insert_of_mem _ h)) hv
  have get : ∀ y, V.unique y ≠ none → y ∉ M → (V.get y).1 = (V.get y).2.length := by
    intro y hy hM
    obtain ⟨⟨n, l⟩, hv⟩ := Option.ne_none_iff_exists'.1 hy
    rw [Values.get, hv]; exact hV y n l hM hv
  have less : ∀ x, V.unique x = none → Full (M \ {x}) V := by
    intro x hx z n l hz hv
    refine hV z n l (fun h => hz ⟨h, ?_⟩) hv
    rintro rfl; rw [hx] at hv; cases hv
  cases op with
  | make x n v => exact put x _ _ rfl (by simp)
  | move x y => exact take y _ _ _ (put x _ _ rfl (get y ha.2 hc))
  | assign x y => exact take y _ _ _ (put x _ _ rfl (get y ha.2 hc))
  | write x i v =>
    intro z n l hz hv
    by_cases e : z = x
    · subst e
      obtain ⟨m, k, hk, hi⟩ := ha
      simp only [effect, Values.put, Function.update_self, Values.get, hk, Option.getD_some] at hv
      cases hv
      rw [List.length_set]; exact hV z _ k hz hk
    · simp only [effect, Values.put, Function.update_of_ne e] at hv; exact hV z n l hz hv
  | destroy x =>
    intro z n l hz hv
    by_cases e : z = x
    · subst e; simp [effect, Values.put] at hv
    · simp only [effect, Values.put, Function.update_of_ne e] at hv; exact hV z n l (fun h => hz ⟨h, e⟩) hv
  | reshapeCopy y x n =>
    simp only [effect]; split_ifs with h
    · exact put y _ _ rfl h
    · exact less y ha.1
  | reshapeMove y x n =>
    have hyx : y ≠ x := by rintro rfl; exact ha.2 ha.1
    have comm : ∀ a b, (V.put x a).put y b = (V.put y b).put x a := fun a b => by simp only [Values.put]; rw [Function.update_comm hyx]
    simp only [effect]; split_ifs with h
    · rw [comm]; exact take x _ _ _ (put y _ _ rfl h)
    · exact take x _ _ _ (less y ha.1)
  | shareCopy s x => simp only [effect]; split_ifs <;> exact hV
  | shareMove s x => simp only [effect]; split_ifs <;> exact take x _ _ _ hV
  | copy => exact hV
  | reshape => simp only [effect]; split_ifs <;> exact hV
  | drop => exact hV

/-- Every array has all its elements if it was not moved from since it got them, in a program that moves no array twice. -/
theorem unique_full_partial (ops : List (Op α)) (h : AllowedAll .empty ops) (hc : CarefulAll ∅ ops) (st : State α) (hr : run ops .empty = .ok st) (x n : Nat)
    (hx : x ∉ movedFromAll ∅ ops) (hs : st.sizes x = some n) (i : Nat) (hi : i < n) : ∃ v, st.read x i = .ok v := by
  have full : ∀ (ops : List (Op α)) (M : Set Nat) (V : Values α), AllowedAll V ops → CarefulAll M ops → Full M V → Full (movedFromAll M ops) (effects V ops) := by
    intro ops
    induction ops with
    | nil => exact fun M V _ _ hV => hV
    | cons op ops ih => exact fun M V ha hc hV => ih _ _ ha.2 hc.2 (full_step M V op ha.1 hc.1 hV)
  obtain ⟨L, H⟩ := inv_reach h hr
  rw [H.sizes] at hs
  obtain ⟨⟨m, l⟩, hv, hm⟩ := Option.map_eq_some_iff.1 hs
  have hn : m = l.length := full ops ∅ .empty h hc (fun _ _ _ _ h => by cases h) x m l hx hv
  have hi' : i < m := hi.trans_eq hm.symm
  rw [((run_values ops h st hr).1 x m l hv).2 i, List.getElem?_eq_getElem (by omega)]
  exact ⟨_, rfl⟩

/-! ## Examples -/

/-- A program that makes an array of six, writes, shares a copy, writes again, makes the array a shared one, tries to reshape that and does, drops one of the two and assigns a new array to
the one that was moved from. -/
private def program : List (Op Int) :=
  [.make 0 6 7, .write 0 2 5, .shareCopy 0 0, .write 0 2 9, .reshapeMove 1 0 6, .shareMove 1 1, .reshape 2 1 3, .reshape 2 1 6, .drop 1, .make 2 2 1, .assign 0 2]

private theorem program_allowed : AllowedAll .empty program :=
  ⟨rfl, ⟨_, _, rfl, by decide⟩, ⟨rfl, by decide⟩, ⟨_, _, rfl, by decide⟩, ⟨rfl, by decide⟩, ⟨rfl, by decide⟩, ⟨rfl, by decide⟩, ⟨rfl, by decide⟩, Option.some_ne_none _, rfl, ⟨by decide, by decide⟩, trivial⟩

/-- Then it destroys everything. -/
private def cleanup : List (Op Int) := [.destroy 0, .destroy 1, .destroy 2, .drop 2, .drop 0]

private theorem cleanup_allowed : AllowedAll .empty (program ++ cleanup) :=
  (allowed_append program cleanup _).2 ⟨program_allowed, Option.some_ne_none _, Option.some_ne_none _, Option.some_ne_none _, Option.some_ne_none _, Option.some_ne_none _, trivial⟩

/-- The copy that was shared first does not see the second write, nothing undefined happens; the array from which everything was moved has been given two new elements. -/
example : ∃ st, run program .empty = .ok st ∧ st.readShared 0 2 = .ok 5 ∧ st.readShared 2 2 = .ok 9 ∧ st.readShared 2 6 = .ub ∧ st.sizes 0 = some 2 ∧ st.read 0 1 = .ok 1
    ∧ st.read 2 0 = .ub := by
  obtain ⟨st, hr⟩ := run_ok program program_allowed
  have h := run_values program program_allowed st hr
  have h0 := h.1 0 2 [1, 1] rfl
  exact ⟨st, hr, h.2 0 6 [7, 7, 5, 7, 7, 7] rfl 2, h.2 2 6 [7, 7, 9, 7, 7, 7] rfl 2, h.2 2 6 [7, 7, 9, 7, 7, 7] rfl 6, h0.1, h0.2 1, (h.1 2 2 [] rfl).2 0⟩

/-- Reshaping six elements to three throws, to six does not. -/
example (st : State Int) (hr : run program .empty = .ok st) : (∃ t, step (.reshape 7 2 3) st = .ok (true, t)) ∧ ∃ t, step (.reshape 7 2 6) st = .ok (false, t) :=
  ⟨step_throws program program_allowed st hr (.reshape 7 2 3) ⟨rfl, by decide⟩, step_throws program program_allowed st hr (.reshape 7 2 6) ⟨rfl, by decide⟩⟩

/-- The first shared array reads the same through all that follows. -/
example (st st' : State Int) (hp : run (program.take 3) .empty = .ok st) (hq : run program .empty = .ok st') : st'.readShared 0 2 = st.readShared 0 2 :=
  shared_constant (program.take 3) (program.drop 3) program_allowed st st' hp hq 0 (by decide) (by simp [program]) 2

/-- Every offset of it can be read. -/
example (st : State Int) (hr : run program .empty = .ok st) (c : Nat) (hs : st.shared 2 = some (6, c)) : ∃ v, st.readShared 2 5 = .ok v :=
  shared_full program program_allowed st hr 2 6 c hs 5 (by decide)

/-- The array that got new elements can be read. -/
example (st : State Int) (hr : run program .empty = .ok st) (hs : st.sizes 0 = some 2) : ∃ v, st.read 0 1 = .ok v :=
  unique_full_partial program program_allowed (by simp [CarefulAll, Careful, program, movedFrom]) st hr 0 2 (by simp [movedFromAll, program, movedFrom]) hs 1 (by decide)

/-- There are blocks in use, all of them of arrays; and none when all arrays are gone. -/
example (st : State Int) (hr : run program .empty = .ok st) (a : Nat) (l : List Int) (ha : st.heap.blocks a = some l) :
    (∃ x n, (effects .empty program).unique x = some (n, l)) ∨ ∃ s n, (effects .empty program).shared s = some (n, l) :=
  run_owned program program_allowed st hr a l ha

example : ∃ st, run (program ++ cleanup) .empty = .ok st ∧ ∀ a, st.heap.blocks a = none := by
  obtain ⟨st, hr⟩ := run_ok _ cleanup_allowed
  refine ⟨st, hr, no_leak _ cleanup_allowed st hr (fun x => ?_) (fun s => ?_)⟩
  · simp only [effects_append]
    simp only [program, cleanup, effects, effect, Values.put, Values.putShared, Values.get, Values.getShared, Values.empty, Function.update_apply]
    by_cases h0 : x = 0 <;> by_cases h1 : x = 1 <;> by_cases h2 : x = 2 <;> simp_all [Function.update_apply]
  · simp only [effects_append]
    simp only [program, cleanup, effects, effect, Values.put, Values.putShared, Values.get, Values.getShared, Values.empty, Function.update_apply]
    by_cases h0 : s = 0 <;> by_cases h1 : s = 1 <;> by_cases h2 : s = 2 <;> simp_all [Function.update_apply]

end Verif.Buffers
