import Verif.Lemmas.ListHeap

/-!
# C01, C76: list storage

Every program over list variables (`Cmd`: declarations, copies, tails, prepends, assignments
including self-assignment and `x = x.tail()`, end of scope, exceptions caught or not, loops) behaves as the same
program over mathematical lists, with storage held exactly by the reachable nodes.
-/

namespace Verif.ListHeap
open Verif

variable {α : Type}

/-- C01: for every program with `n` variables.  If the program is meaningful on lists, then the
code has the same outcome, never touches released storage (`ub` would be the outcome), every
variable in scope reads its list, and the nodes still held are exactly those some variable can
reach. -/
theorem list_program_safe (n fuel : Nat) (c : Cmd α) :
    match specExec fuel c (List.replicate n none) with
    | .ok S => ∃ s, exec fuel c (initial n) = .ok s ∧ Holds s S ∧ NoLeak s
    | .throws e => exec fuel c (initial n) = .throws e
    | .diverges => exec fuel c (initial n) = .diverges
    | .ub => True := by
  have := exec_agrees fuel c (initial_good (α := α) n)
  unfold Agrees at this
  split <;> rename_i h <;> simp only [h] at this
  · obtain ⟨s, e, G⟩ := this
    exact ⟨s, e, G.holds, G.noLeak⟩
  · exact this
  · exact this
  · trivial

/-- Two lists sharing a tail: both read back, and only reachable nodes are held. -/
example : ∃ s, exec 5 (.seq (.op (.declEmpty 0)) <| .seq (.op (.assignPrepend 0 0 (.lit 1))) <|
    .seq (.op (.declPrepend 1 0 (.lit 2))) <| .op (.assignPrepend 0 0 (.lit 3)) : Cmd Nat)
    (initial 2) = .ok s ∧ Holds s [some [3, 1], some [2, 1]] ∧ NoLeak s :=
  list_program_safe 2 5 (.seq (.op (.declEmpty 0)) <| .seq (.op (.assignPrepend 0 0 (.lit 1))) <|
    .seq (.op (.declPrepend 1 0 (.lit 2))) <| .op (.assignPrepend 0 0 (.lit 3)) : Cmd Nat)

/-- C01, corollary: when all variables have gone out of scope no node is held. -/
theorem list_program_releases_all (n fuel : Nat) (c : Cmd α) (S : Spec α)
    (h : specExec fuel c (List.replicate n none) = .ok S) (hS : ∀ x : Nat, ∀ l, S[x]? ≠ some (some l)) :
    ∃ s, exec fuel c (initial n) = .ok s ∧ ∀ p o rc, s.heap p ≠ .live o rc := by
  have := list_program_safe n fuel c
  rw [h] at this
  obtain ⟨s, e, H, L⟩ := this
  refine ⟨s, e, fun p o rc hp => ?_⟩
  have hr : Reachable s p := (L p).1.mp ⟨o, rc, hp⟩
  have : ∀ q, ¬ Reachable s q := by
    intro q hq
    induction hq with
    | root x o p hx hn =>
      obtain ⟨l, hl, _⟩ := H.2.2 x o hx
      exact hS x l hl
    | next _ _ _ _ _ _ _ ih => exact ih
  exact this p hr

/-- A program that shares nodes, overwrites, and destroys every variable leaves nothing held. -/
example : ∃ s, exec 5 (.seq (.op (.declEmpty 0)) <| .seq (.op (.assignPrepend 0 0 (.lit 1))) <|
    .seq (.op (.declPrepend 1 0 (.lit 2))) <| .seq (.op (.assignTail 1 1)) <|
    .seq (.op (.destroy 0)) <| .op (.destroy 1) : Cmd Nat) (initial 2) = .ok s ∧
    ∀ p o rc, s.heap p ≠ .live o rc :=
  list_program_releases_all 2 5 _ [none, none] (by decide) (by
    intro x l h; match x with | 0 | 1 => simp at h | (n + 2) => simp at h)

/-- C02 at the level of storage: `reverse`, run as the code runs it, on any list of any program
state, leaves exactly the reversed list in the new variable, every other list unchanged and no
node behind. -/
theorem list_reverse_heap (n fuel : Nat) (c : Cmd α) (S : Spec α) (t x a : Nat) (l : List α)
    (h : specExec fuel c (List.replicate n none) = .ok S)
    (hx : S[x]? = some (some l)) (ht : S[t]? = some none) (ha : S[a]? = some none) (hta : t ≠ a)
    (hf : l.length < fuel) :
    ∃ s, exec fuel (.seq c (reverseCmd t x a)) (initial n) = .ok s ∧
      Holds s (S.set t (some l.reverse)) ∧ NoLeak s := by
  have len : ∀ {S : Spec α} {x : Nat} {v}, S[x]? = some v → x < S.length := by
    intro S x v h
    by_contra hc; rw [List.getElem?_eq_none (by omega)] at h; simp at h
  have htx : x ≠ t := by rintro rfl; rw [hx] at ht; simp at ht
  have hax : x ≠ a := by rintro rfl; rw [hx] at ha; simp at ha
  -- the loop
  have loop : ∀ (m : List α) (k : Nat) (T : Spec α) (r : List α), m.length < k →
      T[a]? = some (some m) → T[t]? = some (some r) →
      specExec.loop k a (specExec fuel (.seq (.op (.assignPrepend t t (.headOf a)))
        (.op (.assignTail a a)))) T
        = .ok ((T.set t (some (m.reverse ++ r))).set a (some [])) := by
    intro m
    induction m with
    | nil =>
      intro k T r hk hTa hTt
      obtain ⟨j, rfl⟩ : ∃ j, k = j + 1 := ⟨k - 1, by simp at hk; omega⟩
      simp only [specExec.loop, Spec.get, hTa, Outcome.bind_ok, List.reverse_nil, List.nil_append]
      congr 1
      apply List.ext_getElem?
      intro i
      by_cases e1 : i = a
      · subst e1; rw [List.getElem?_set_self (by simpa using len hTa), hTa]
      · rw [List.getElem?_set_ne (Ne.symm e1)]
        by_cases e2 : i = t
        · subst e2; rw [List.getElem?_set_self (len hTt), hTt]
        · rw [List.getElem?_set_ne (Ne.symm e2)]
    | cons b m ih =>
      intro k T r hk hTa hTt
      obtain ⟨j, rfl⟩ : ∃ j, k = j + 1 := ⟨k - 1, by simp at hk; omega⟩
      have hTa' : (T.set t (some (b :: r)))[a]? = some (some (b :: m)) := by
        rw [List.getElem?_set_ne hta, hTa]
      have body : specExec fuel (.seq (.op (.assignPrepend t t (.headOf a)))
          (.op (.assignTail a a))) T = .ok ((T.set t (some (b :: r))).set a (some m)) := by
        simp only [specExec, specStep, Spec.get, Spec.src, hTa, hTt, Outcome.bind_ok, hTa',
          specTail]
      have hg : T.get a = .ok (b :: m) := by simp [Spec.get, hTa]
      simp only [specExec.loop, hg, Outcome.bind_ok, body]
      rw [ih j _ (b :: r) (by simp at hk; omega) ?_ ?_]
      · congr 1
        simp only [List.reverse_cons, List.append_assoc, List.singleton_append]
        apply List.ext_getElem?
        intro i
        by_cases e1 : i = a
        · subst e1
          rw [List.getElem?_set_self (by simpa using len hTa),
            List.getElem?_set_self (by simpa using len hTa)]
        · rw [List.getElem?_set_ne (Ne.symm e1), List.getElem?_set_ne (Ne.symm e1)]
          by_cases e2 : i = t
          · subst e2
            rw [List.getElem?_set_self (by simpa using len hTt),
              List.getElem?_set_self (by simpa using len hTt)]
          · rw [List.getElem?_set_ne (Ne.symm e2), List.getElem?_set_ne (Ne.symm e1),
              List.getElem?_set_ne (Ne.symm e2), List.getElem?_set_ne (Ne.symm e2)]
      · rw [List.getElem?_set_self (by simpa using len hTa)]
      · rw [List.getElem?_set_ne (Ne.symm hta), List.getElem?_set_self (len hTt)]
  have spec : specExec fuel (.seq c (reverseCmd t x a)) (List.replicate n none) =
      .ok (S.set t (some l.reverse)) := by
    have e1 : specExec fuel (.op (.declCopy a x)) S = .ok (S.set a (some l)) := by
      simp [specExec, specStep, Spec.fresh, ha, Spec.get, hx]
    have e2 : specExec fuel (.op (.declEmpty t)) (S.set a (some l)) =
        .ok ((S.set a (some l)).set t (some [])) := by
      simp only [specExec, specStep, Spec.fresh]
      rw [List.getElem?_set_ne (Ne.symm hta), ht]; rfl
    have h1 : ((S.set a (some l)).set t (some []))[a]? = some (some l) := by
      rw [List.getElem?_set_ne hta, List.getElem?_set_self (len ha)]
    have h2 : ((S.set a (some l)).set t (some []))[t]? = some (some []) := by
      rw [List.getElem?_set_self (by simpa using len ht)]
    have := loop l fuel _ [] hf h1 h2
    have e3 : ∀ T : Spec α, specExec fuel (.whileNonEmpty a (.seq (.op (.assignPrepend t t (.headOf a)))
        (.op (.assignTail a a)))) T = specExec.loop fuel a (specExec fuel (.seq (.op
          (.assignPrepend t t (.headOf a))) (.op (.assignTail a a)))) T := fun _ => rfl
    have e4 : ∀ (c d : Cmd α) T, specExec fuel (.seq c d) T =
        (specExec fuel c T).bind (specExec fuel d) := fun _ _ _ => rfl
    rw [reverseCmd, e4, h, Outcome.bind_ok, e4, e1, Outcome.bind_ok, e4, e2, Outcome.bind_ok, e4, e3,
      this, Outcome.bind_ok]
    simp only [specExec, specStep, Spec.get]
    rw [List.getElem?_set_self (by simpa using len ha)]
    simp only [Outcome.bind_ok, List.append_nil]
    congr 1
    apply List.ext_getElem?
    intro i
    by_cases e1 : i = a
    · subst e1
      rw [List.getElem?_set_self (by simpa using len ha), List.getElem?_set_ne hta, ha]
    · rw [List.getElem?_set_ne (Ne.symm e1), List.getElem?_set_ne (Ne.symm e1)]
      by_cases e2 : i = t
      · subst e2
        rw [List.getElem?_set_self (by simpa using len ht), List.getElem?_set_self (len ht)]
      · rw [List.getElem?_set_ne (Ne.symm e2), List.getElem?_set_ne (Ne.symm e2),
          List.getElem?_set_ne (Ne.symm e1), List.getElem?_set_ne (Ne.symm e2)]
  have := list_program_safe n fuel (.seq c (reverseCmd t x a))
  rw [spec] at this
  exact this


/-- The hypotheses of the theorems are met by programs that share nodes. -/
example : specExec 5 (.seq (.op (.declEmpty 0)) <| .seq (.op (.assignPrepend 0 0 (.lit 1))) <|
    .seq (.op (.declPrepend 1 0 (.lit 2))) <| .seq (.op (.declPrepend 2 0 (.lit 3))) <|
    .seq (.op (.destroy 0)) <| .seq (.op (.destroy 1)) <| .op (.assignTail 2 2) : Cmd Nat)
    (List.replicate 3 none) = .ok [none, none, some [1]] := by
  decide

example : specExec 5 (.seq (.op (.declEmpty 0)) <| .seq (.op (.assignPrepend 0 0 (.lit 1))) <|
    .op (.assignPrepend 0 0 (.lit 2)) : Cmd Nat) (List.replicate 3 none)
    = .ok [some [2, 1], none, none] ∧ [2, 1].length < 5 := by decide

end Verif.ListHeap
