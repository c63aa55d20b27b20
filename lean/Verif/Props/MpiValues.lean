import Verif.Props.Mpi
/-! C148: values sent as messages arrive as they are, in order. -/

namespace Verif.Mpi

variable {α : Type}

/-- The value in a message of a sender, if the message is of the size of a value. -/
def valueOf (c : Codec α) (m : Msg) : Outcome α :=
  if m.body.length = c.sz then .ok (c.dec m.body) else .throws .logicError

theorem filter_eraseIdx_first {p : Msg → Bool} {l : List Msg} {k : Nat} {m : Msg} (hm : l[k]? = some m)
    (hp : p m = true) (hf : ∀ j m', j < k → l[j]? = some m' → p m' = false) :
    l.filter p = m :: (l.eraseIdx k).filter p := by
  induction l generalizing k with
  | nil => simp at hm
  | cons a l ih =>
    cases k with
    | zero =>
      simp only [List.getElem?_cons_zero, Option.some.injEq] at hm
      subst hm
      simp [hp]
    | succ k =>
      have ha : p a = false := hf 0 a (Nat.succ_pos k) rfl
      have h2 := ih (k := k) (by simpa using hm) (fun j m' hj hm' => hf (j + 1) m' (by omega) (by simpa using hm'))
      simp [ha, h2]

theorem filter_eraseIdx_not {p : Msg → Bool} {l : List Msg} {k : Nat} {m : Msg} (hm : l[k]? = some m)
    (hp : p m = false) : (l.eraseIdx k).filter p = l.filter p := by
  induction l generalizing k with
  | nil => simp at hm
  | cons a l ih =>
    cases k with
    | zero =>
      simp only [List.getElem?_cons_zero, Option.some.injEq] at hm
      subst hm
      simp [hp]
    | succ k =>
      have h2 := ih (k := k) (by simpa using hm)
      simp only [List.eraseIdx_cons_succ, List.filter_cons, h2]

/-- **C148, as far as it holds.** Receiving values from a named source: whatever else arrives in between, the
calls return, in turn, the values of the messages of that source with that tag, in the order they were sent,
none of them left out or returned twice; a message that has not the size of a value gives the exception, and
is consumed.  The messages of other sources and tags stay as they are.  What is missing:
`values_any_violated` (and see `receives_any_partial`). -/
theorem receives_partial {c : Codec α} {source : Nat} {tag : Option Nat} {box ms box' : List Msg}
    {rs : List (Outcome α)} (h : Receives c (some source) tag box ms rs box') :
    ((box ++ ms).filter (matchesMsg (some source) tag)).map (valueOf c) =
        rs ++ (box'.filter (matchesMsg (some source) tag)).map (valueOf c) ∧
      box'.filter (fun m => !matchesMsg (some source) tag m) =
        (box ++ ms).filter (fun m => !matchesMsg (some source) tag m) := by
  induction h with
  | done box => simp
  | arrive m h ih => simpa using ih
  | @recv box ms box' rs arrived r k hr h ih =>
    obtain ⟨m, h1, h2, h3, h4, h5⟩ := recv_partial hr
    have hlt : k < box.length := by
      by_contra hh
      rw [List.getElem?_eq_none (by omega)] at h1
      cases h1
    have hp : matchesMsg (some source) tag m = true := by
      cases tag with
      | none => simp [matchesMsg, h2]
      | some t => simp [matchesMsg, h2, h3 t rfl]
    have e : (box ++ arrived).eraseIdx k ++ ms = (box ++ (arrived ++ ms)).eraseIdx k := by
      rw [← List.append_assoc, List.eraseIdx_append_of_lt_length (l := box ++ arrived)]
      simp only [List.length_append]
      omega
    have hm : (box ++ (arrived ++ ms))[k]? = some m := by rw [List.getElem?_append_left hlt, h1]
    rw [e] at ih
    constructor
    · rw [filter_eraseIdx_first hm hp (fun j m' hj hm' => h5 j m' hj (by
        rwa [List.getElem?_append_left (by omega)] at hm')), List.map_cons, ih.1, h4]
      simp only [List.cons_append, List.cons.injEq, and_true]
      unfold valueOf asValue
      by_cases hl : m.body.length = c.sz <;> simp [Outcome.bind, hl]
    · rw [ih.2, filter_eraseIdx_not hm (by simp [hp])]

/-- The values sent from this source with this tag, in order, among what is sent: values, with source and tag,
and other messages. -/
def sentValues (source tag : Nat) (traffic : List ((Nat × Nat × α) ⊕ Msg)) : List α :=
  traffic.filterMap fun
    | .inl (s, t, v) => if s = source ∧ t = tag then some v else none
    | .inr _ => none

/-- **C148, as far as it holds.** If the messages of a rank with this tag are values of this type, the calls
return the first of them, in order, and no exception, whatever other ranks send and however the messages
mix. -/
theorem values_partial {c : Codec α} {source tag : Nat} {box' : List Msg} {rs : List (Outcome α)}
    {traffic : List ((Nat × Nat × α) ⊕ Msg)}
    (h : Receives c (some source) (some tag) []
      (traffic.map (Sum.elim (fun p => sendValue c p.1 p.2.1 p.2.2) id)) rs box')
    (ho : ∀ m, Sum.inr m ∈ traffic → ¬ (m.source = source ∧ m.tag = tag)) :
    rs = ((sentValues source tag traffic).take rs.length).map .ok ∧
      rs.length ≤ (sentValues source tag traffic).length := by
  have h1 := (receives_partial h).1
  have e : ((traffic.map (Sum.elim (fun p => sendValue c p.1 p.2.1 p.2.2) id)).filter
      (matchesMsg (some source) (some tag))).map (valueOf c) = (sentValues source tag traffic).map .ok := by
    clear h h1
    induction traffic with
    | nil => rfl
    | cons a l ih =>
      have ih := ih fun m hm => ho m (List.mem_cons_of_mem _ hm)
      have hmatch : ∀ m : Msg, matchesMsg (some source) (some tag) m =
          decide (m.source = source ∧ m.tag = tag) := by
        intro m
        rw [Bool.eq_iff_iff]
        simp [matchesMsg, @eq_comm _ m.source, @eq_comm _ m.tag]
      rcases a with ⟨s, t, v⟩ | m
      · by_cases hst : s = source ∧ t = tag
        · have hd : matchesMsg (some source) (some tag) (sendValue c s t v) = true := by
            rw [hmatch]; exact decide_eq_true hst
          have hv : valueOf c (sendValue c s t v) = .ok v := by simp [valueOf, sendValue, c.len, c.dec_enc]
          have hs : sentValues source tag (.inl (s, t, v) :: l) = v :: sentValues source tag l := by
            simp [sentValues, hst]
          rw [hs, List.map_cons (f := Outcome.ok), ← ih, ← hv]
          exact congrArg (List.map (valueOf c)) (List.filter_cons_of_pos hd)
        · have hd : ¬ matchesMsg (some source) (some tag) (sendValue c s t v) = true := by
            rw [hmatch, decide_eq_true_eq]; exact hst
          have hs : sentValues source tag (.inl (s, t, v) :: l) = sentValues source tag l := by
            simp [sentValues, hst]
          rw [hs, ← ih, List.map_cons]
          congr 1
          exact List.filter_cons_of_neg hd
      · have hd : ¬ matchesMsg (some source) (some tag) m = true := by
          rw [hmatch]; simpa using ho m List.mem_cons_self
        have hs : sentValues source tag (.inr m :: l) = sentValues source tag l := rfl
        rw [hs, ← ih, List.map_cons]
        congr 1
        exact List.filter_cons_of_neg hd
  rw [List.nil_append, e] at h1
  have hl : rs.length ≤ (sentValues source tag traffic).length := by
    have := congrArg List.length h1
    simp only [List.length_map, List.length_append] at this
    omega
  refine ⟨?_, hl⟩
  have := congrArg (List.take rs.length) h1
  rw [List.take_left] at this
  rw [List.map_take]
  exact this.symm

theorem filter_eraseIdx_perm {p : Msg → Bool} {l : List Msg} {k : Nat} {m : Msg} (hm : l[k]? = some m)
    (hp : p m = true) : (l.filter p).Perm (m :: (l.eraseIdx k).filter p) := by
  obtain ⟨hlt, rfl⟩ := List.getElem?_eq_some_iff.1 hm
  have h := (List.getElem_cons_eraseIdx_perm hlt).symm.filter p
  rwa [List.filter_cons_of_pos hp] at h

/-- **C148, as far as it holds**, for any source: if all messages asked for have the size of a value, the calls
return values that were sent, each of them once, and throw nothing; those not returned are still there, and
other messages stay. -/
theorem receives_any_partial {c : Codec α} {source tag : Option Nat} {box ms box' : List Msg}
    {rs : List (Outcome α)} (hn : ∀ m ∈ box ++ ms, matchesMsg source tag m = true → m.body.length = c.sz)
    (h : Receives c source tag box ms rs box') :
    (((box ++ ms).filter (matchesMsg source tag)).map fun m => Outcome.ok (c.dec m.body)).Perm
        (rs ++ (box'.filter (matchesMsg source tag)).map fun m => .ok (c.dec m.body)) ∧
      box'.filter (fun m => !matchesMsg source tag m) =
        (box ++ ms).filter (fun m => !matchesMsg source tag m) := by
  induction h with
  | done box => simp
  | arrive m h ih => simpa using ih (by simpa using hn)
  | @recv box ms box' rs arrived r k hr h ih =>
    obtain ⟨m, h1, h2, h3⟩ := recv_same_length_partial (n := c.sz)
      (fun m hm => hn m (by rw [← List.append_assoc]; exact List.mem_append_left _ hm)) hr
    have hlt : k < (box ++ arrived).length := (List.getElem?_eq_some_iff.1 h1).1
    have e : (box ++ arrived).eraseIdx k ++ ms = (box ++ (arrived ++ ms)).eraseIdx k := by
      rw [← List.append_assoc, List.eraseIdx_append_of_lt_length hlt]
    have hm : (box ++ (arrived ++ ms))[k]? = some m := by
      rw [← List.append_assoc, List.getElem?_append_left hlt, h1]
    have ih := ih (fun m' hm' => hn m' (by rw [e] at hm'; exact List.mem_of_mem_eraseIdx hm'))
    rw [e] at ih
    constructor
    · have hv : asValue c r = .ok (c.dec m.body) := by
        rw [h3]
        simp [asValue, Outcome.bind, hn m (List.mem_of_getElem? hm) h2]
      rw [hv]
      refine ((filter_eraseIdx_perm hm h2).map _).trans ?_
      exact ih.1.cons _
    · rw [ih.2, filter_eraseIdx_not hm (by simp [h2])]

/-- **C148** Also for any source, and whatever the sizes: of each rank `s` the messages asked for are taken in
the order they were sent; those left are the last ones, and as many are taken, of all ranks together, as calls
were made. -/
theorem receives_in_order {c : Codec α} {source tag : Option Nat} {box ms box' : List Msg}
    {rs : List (Outcome α)} (h : Receives c source tag box ms rs box') :
    (∀ s, box'.filter (fun m => matchesMsg source tag m && m.source == s) <:+
        (box ++ ms).filter (fun m => matchesMsg source tag m && m.source == s)) ∧
      box'.length + rs.length = (box ++ ms).length := by
  induction h with
  | done box => simp
  | arrive m h ih => simpa using ih
  | @recv box ms box' rs arrived r k hr h ih =>
    obtain ⟨m, h1, h2, h3⟩ : eligible source tag (box ++ arrived) k := by
      cases hr with
      | fits i k m m' hi hm hk hm' hlen => exact hk
      | truncated i k m m' hi hm hk hm' hlen => exact hk
    have hlt : k < (box ++ arrived).length := (List.getElem?_eq_some_iff.1 h1).1
    have e : (box ++ arrived).eraseIdx k ++ ms = (box ++ (arrived ++ ms)).eraseIdx k := by
      rw [← List.append_assoc, List.eraseIdx_append_of_lt_length hlt]
    have hm : (box ++ (arrived ++ ms))[k]? = some m := by
      rw [← List.append_assoc, List.getElem?_append_left hlt, h1]
    rw [e] at ih
    constructor
    · intro s
      refine (ih.1 s).trans ?_
      by_cases hs : m.source = s
      · rw [filter_eraseIdx_first (p := fun m => matchesMsg source tag m && m.source == s) hm (by simp [h2, hs])]
        · exact List.suffix_cons _ _
        · intro j m' hj hm'
          rw [← List.append_assoc, List.getElem?_append_left (by omega)] at hm'
          by_cases hs' : m'.source = s
          · simp [h3 j m' hj hm' (hs'.trans hs.symm)]
          · simp [hs']
      · rw [filter_eraseIdx_not (p := fun m => matchesMsg source tag m && m.source == s) hm (by simp [hs])]
        exact List.suffix_rfl
    · have hlt' : k < (box ++ (arrived ++ ms)).length := (List.getElem?_eq_some_iff.1 hm).1
      have := ih.2
      rw [List.length_eraseIdx_of_lt hlt'] at this
      simp only [List.length_cons]
      omega

/-- A type of two bytes. -/
def twoBytes : Codec (Byte × Byte) where
  sz := 2
  enc p := [p.1, p.2]
  dec
    | [a, b] => (a, b)
    | _ => (0, 0)
  pos := by decide
  len _ := rfl
  dec_enc _ := rfl

/-- **C148 is violated** for `any_source`: of two messages, a value of two bytes and one byte of another rank,
the call may return a value that nobody has sent, and no exception. -/
theorem values_any_violated :
    Receives twoBytes none none [sendValue twoBytes 1 0 (5, 6), ⟨2, 0, [7]⟩] [] [.ok (7, 0)]
      [sendValue twoBytes 1 0 (5, 6)] :=
  Receives.recv [] _ 1 recv_violated.1 (Receives.done _)

/-- Two values of rank 2, while rank 1 sends too. -/
theorem receives_example :
    Receives twoBytes (some 2) (some 0) []
      [sendValue twoBytes 2 0 (1, 2), ⟨1, 0, [9]⟩, sendValue twoBytes 2 0 (3, 4)] [.ok (1, 2)]
      [⟨1, 0, [9]⟩, sendValue twoBytes 2 0 (3, 4)] := by
  have e : eligible (some 2) (some 0) [sendValue twoBytes 2 0 (1, 2)] 0 :=
    ⟨_, rfl, rfl, fun j m' hj => absurd hj (Nat.not_lt_zero j)⟩
  refine Receives.arrive _ ?_
  exact Receives.recv [⟨1, 0, [9]⟩, sendValue twoBytes 2 0 (3, 4)] (.ok [1, 2]) 0
    (Recv.fits 0 0 _ _ e rfl (eligible_append e) rfl le_rfl) (Receives.done _)

/-- `receives_partial` -/
example : ([sendValue twoBytes 2 0 (1, 2), ⟨1, 0, [9]⟩, sendValue twoBytes 2 0 (3, 4)].filter
    (matchesMsg (some 2) (some 0))).map (valueOf twoBytes) = [.ok (1, 2), .ok (3, 4)] :=
  (receives_partial receives_example).1

/-- `values_partial` -/
example : ([.ok (1, 2)] : List (Outcome (Byte × Byte))) = ([((1 : Byte), (2 : Byte)), (3, 4)].take 1).map .ok :=
  (values_partial (traffic := [.inl (2, 0, (1, 2)), .inr ⟨1, 0, [9]⟩, .inl (2, 0, (3, 4))]) receives_example
    (by simp)).1

/-- `receives_any_partial`: of two values of two ranks the later one may be returned first. -/
theorem receives_any_example :
    Receives twoBytes none none [sendValue twoBytes 1 0 (5, 6), sendValue twoBytes 2 0 (7, 8)] [] [.ok (7, 8)]
      [sendValue twoBytes 1 0 (5, 6)] := by
  have e1 : eligible none none [sendValue twoBytes 1 0 (5, 6), sendValue twoBytes 2 0 (7, 8)] 1 := by
    refine ⟨_, rfl, rfl, fun j m' hj hm' hs => ?_⟩
    have : j = 0 := by omega
    subst this
    simp only [List.getElem?_cons_zero, Option.some.injEq] at hm'
    subst hm'
    simp [sendValue] at hs
  exact Receives.recv [] (.ok [7, 8]) 1 (Recv.fits 1 1 _ _ e1 rfl e1 rfl le_rfl) (Receives.done _)
example : ([.ok (5, 6), .ok (7, 8)] : List (Outcome (Byte × Byte))).Perm [.ok (7, 8), .ok (5, 6)] :=
  (receives_any_partial (by
    intro m hm _
    simp only [List.append_nil, List.mem_cons, List.not_mem_nil, or_false] at hm
    rcases hm with rfl | rfl <;> rfl) receives_any_example).1

/-- `receives_in_order`: of rank 1, none has been taken. -/
example : [sendValue twoBytes 1 0 (5, 6)].filter (fun m => matchesMsg none none m && m.source == 1) <:+
    ([sendValue twoBytes 1 0 (5, 6), sendValue twoBytes 2 0 (7, 8)] ++ []).filter
      (fun m => matchesMsg none none m && m.source == 1) :=
  (receives_in_order receives_any_example).1 1

end Verif.Mpi
