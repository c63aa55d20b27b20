import Verif.Props.Mpi
/-! C149: a non-blocking receive gives the first message that matches, or tells that there is none. -/

namespace Verif.Mpi

/-- **C149, as far as it holds.** From a named source whose matching messages are longer than `sso`
characters (or empty), a non-blocking receive, waited for, gives the first message there that matches, whole,
whatever arrives in between; if none matches it receives none, and gives an empty text.  What is missing:
`irecv_short_violated`, `irecv_empty_violated`, and `recv_violated` for any source. -/
theorem irecv_partial {sso source : Nat} {tag : Option Nat} {box arrived : List Msg} {r : Outcome (List Byte)}
    {k : Option Nat}
    (hlong : ∀ m ∈ box, matchesMsg (some source) tag m = true → m.body = [] ∨ sso < m.body.length)
    (h : Irecv sso (some source) tag box arrived r k) :
    (k = none ∧ r = .ok [] ∧ ∀ m ∈ box, m.source = source → ∃ t, tag = some t ∧ m.tag ≠ t) ∨
      ∃ j m, k = some j ∧ box[j]? = some m ∧ m.source = source ∧ (∀ t, tag = some t → m.tag = t) ∧
        r = .ok m.body ∧ ∀ i m', i < j → box[i]? = some m' → m'.source = source → ∃ t, tag = some t ∧ m'.tag ≠ t := by
  have key : ∀ m : Msg, matchesMsg (some source) tag m = false → m.source = source → ∃ t, tag = some t ∧ m.tag ≠ t := by
    intro m hm hs
    cases tag with
    | none => simp [matchesMsg, hs] at hm
    | some t =>
      refine ⟨t, rfl, fun he => ?_⟩
      simp [matchesMsg, hs, he] at hm
  cases h with
  | nothing h => exact .inl ⟨rfl, rfl, fun m hm => key m (h m hm)⟩
  | received r k h =>
    obtain ⟨m, h1, h2, h3, h4, h5⟩ := recv_partial h
    exact .inr ⟨k, m, rfl, h1, h2, h3, h4, fun i m' hi hm' => key m' (h5 i m' hi hm')⟩
  | late i k m m' hi hm hk hm' hlen hpos hfit =>
    obtain ⟨m₀, g1, g2, -⟩ := hi
    rw [hm] at g1
    cases g1
    rcases hlong m (List.mem_of_getElem? hm) g2 with e | e
    · rw [e] at hfit
      simp only [List.length_nil] at hfit
      omega
    · omega

/-- A message that is there is received: from a named source, if one matches the call does not come back
with nothing. -/
theorem irecv_some {sso source : Nat} {tag : Option Nat} {box arrived : List Msg} {r : Outcome (List Byte)}
    {k : Option Nat} {m : Msg} (hm : m ∈ box) (hs : m.source = source) (ht : ∀ t, tag = some t → m.tag = t)
    (h : Irecv sso (some source) tag box arrived r k) : k ≠ none := by
  rintro rfl
  cases h with
  | nothing h =>
    have := h m hm
    cases tag with
    | none => simp [matchesMsg, hs] at this
    | some t => simp [matchesMsg, hs, ht t rfl] at this

theorem eligible_single (s t : Nat) (b : List Byte) : eligible (some s) none [⟨s, t, b⟩] 0 :=
  ⟨_, rfl, by simp [matchesMsg], fun j m' hj => absurd hj (Nat.not_lt_zero j)⟩

/-- **C149 is violated** by short messages: of one to fifteen bytes, say a `double`, the message may be put
into memory that is gone. -/
theorem irecv_short_violated (b : List Byte) (h0 : b ≠ []) (h15 : b.length ≤ 15) :
    Irecv 15 (some 1) none [⟨1, 0, b⟩] [] .ub (some 0) :=
  .late 0 0 _ _ (eligible_single 1 0 b) rfl (eligible_single 1 0 b) rfl h15 (List.length_pos_iff.mpr h0) le_rfl

/-- **C149 is violated** if no message is there: what the request gives is as after an empty message, so a
caller cannot tell whether one was received. -/
theorem irecv_empty_violated (sso : Nat) :
    Irecv sso (some 1) none [] [] (.ok []) none ∧ Irecv sso (some 1) none [⟨1, 0, []⟩] [] (.ok []) (some 0) :=
  ⟨.nothing (by simp), .received _ 0
    (.fits 0 0 _ _ (eligible_single 1 0 []) rfl (eligible_single 1 0 []) rfl le_rfl)⟩

/-- A message of three characters, where up to two are kept inside of a text. -/
theorem irecv_example : Irecv 2 (some 1) none [⟨1, 0, [7, 8, 9]⟩] [⟨1, 4, [1]⟩] (.ok [7, 8, 9]) (some 0) :=
  .received _ 0 (.fits 0 0 _ _ (eligible_single 1 0 _) rfl (eligible_append (eligible_single 1 0 _)) rfl le_rfl)

/-- `irecv_partial`, `irecv_some`: it is the only outcome. -/
example (r : Outcome (List Byte)) (k : Option Nat)
    (h : Irecv 2 (some 1) none [⟨1, 0, [7, 8, 9]⟩] [⟨1, 4, [1]⟩] r k) : r = .ok [7, 8, 9] := by
  have hk := irecv_some (m := ⟨1, 0, [7, 8, 9]⟩) (by simp) rfl (by simp) h
  rcases irecv_partial (by simp) h with ⟨h1, -⟩ | ⟨j, m, -, h2, -, -, h3, -⟩
  · exact absurd h1 hk
  · match j with
    | 0 => simp only [List.getElem?_cons_zero, Option.some.injEq] at h2; subst h2; exact h3
    | (n + 1) => simp at h2

/-- `irecv_short_violated`: a `double`. -/
example : Irecv 15 (some 1) none [⟨1, 0, [0, 0, 0, 0, 0, 0, 240, 63]⟩] [] .ub (some 0) :=
  irecv_short_violated _ (by simp) (by decide)

end Verif.Mpi
