import Verif.Spec.Schedule
import Verif.Lemmas.StdMap
import Mathlib.Algebra.Order.Ring.Defs
import Mathlib.Algebra.Order.Group.Defs
import Mathlib.Tactic.Linarith
import Mathlib.Tactic.Ring

/-! Lemmas on schedules. -/

namespace Verif.Sched
open Verif Verif.Text

variable {τ S : Type}

theorem at_ok {s : Schedule τ} {name : Str} {t : TaskRec τ} : s.at' name = .ok t ↔ s.get? name = some t := by
  simp only [Schedule.at']
  cases s.get? name <;> simp

theorem at_none {s : Schedule τ} {name : Str} (h : s.get? name = none) : s.at' name = .throws .outOfRange := by
  simp [Schedule.at', h]

theorem isDue_ok {s : Schedule τ} {name : Str} {b : Bool} :
    s.isDue name = .ok b ↔ ∃ t, s.get? name = some t ∧ t.due = b := by
  simp [Schedule.isDue, Outcome.map_eq_ok, at_ok]

theorem num_ok {s : Schedule τ} {name : Str} {n : Nat} :
    s.numTimesPerformed name = .ok n ↔ ∃ t, s.get? name = some t ∧ t.num = n := by
  simp [Schedule.numTimesPerformed, Outcome.map_eq_ok, at_ok]

theorem completed_ok {s s' : Schedule τ} {name : Str} :
    s.markAsCompleted name = .ok s' ↔ ∃ t, s.get? name = some t ∧ s' = s.set name t.done := by
  simp only [Schedule.markAsCompleted, Outcome.bind_eq_ok, at_ok, Outcome.ok.injEq, TaskRec.done]
  exact ⟨fun ⟨t, h, e⟩ => ⟨t, h, e.symm⟩, fun ⟨t, h, e⟩ => ⟨t, h, e.symm⟩⟩

theorem markAsDue_ok [Add τ] {s s' : Schedule τ} {name : Str} {x : τ} :
    s.markAsDue name x = .ok s' ↔
      ∃ t, s.get? name = some t ∧ s' = s.set name { t with due := true, last := t.last + x } := by
  simp only [Schedule.markAsDue, Outcome.bind_eq_ok, at_ok, Outcome.ok.injEq]
  exact ⟨fun ⟨t, h, e⟩ => ⟨t, h, e.symm⟩, fun ⟨t, h, e⟩ => ⟨t, h, e.symm⟩⟩

/-- What the loop over the tasks does when all names are known. -/
theorem runLoop_known (sched : Schedule τ) (tasks : List (Str × (S → Outcome S))) (s : S)
    (h : ∀ p ∈ tasks, p.1 ∈ sched.keys) :
    runLoop sched tasks s = runAll ((tasks.filter fun p => decide (DueIn sched p.1)).map Prod.snd) s := by
  induction tasks generalizing s with
  | nil => rfl
  | cons p tasks ih =>
    obtain ⟨name, f⟩ := p
    have hn : name ∈ sched.keys := h (name, f) List.mem_cons_self
    have ht : ∀ p ∈ tasks, p.1 ∈ sched.keys := fun p hp => h p (List.mem_cons_of_mem _ hp)
    obtain ⟨t, hg⟩ := Option.isSome_iff_exists.1 (SMap.get?_isSome.2 hn)
    have hd : sched.isDue name = .ok t.due := isDue_ok.2 ⟨t, hg, rfl⟩
    simp only [runLoop, hd, Outcome.bind_ok, List.filter_cons]
    by_cases hb : t.due = true
    · have : DueIn sched name := ⟨t, hg, hb⟩
      simp only [hb, this, if_true, decide_true, List.map_cons, runAll]
      congr 1
      funext s'
      exact ih s' ht
    · have : ¬ DueIn sched name := by
        rintro ⟨t', hg', hb'⟩
        rw [hg] at hg'; cases hg'; exact hb hb'
      simp only [hb, this, decide_false]
      exact ih s ht

theorem runLoop_append (sched : Schedule τ) (a b : List (Str × (S → Outcome S))) (s : S) :
    runLoop sched (a ++ b) s = (runLoop sched a s).bind (runLoop sched b) := by
  induction a generalizing s with
  | nil => rfl
  | cons p a ih =>
    obtain ⟨name, f⟩ := p
    simp only [List.cons_append, runLoop, Outcome.bind_assoc]
    congr 1
    funext d
    cases d
    · simp only [Bool.false_eq_true, if_false]; exact ih s
    · simp only [if_true, Outcome.bind_assoc]
      congr 1
      funext s'
      exact ih s'

/-- What marking does to the schedule. -/
theorem markLoop_ok [Add τ] [Sub τ] [LinearOrder τ] {orig next s' : Schedule τ} {time : τ}
    {iv : List (Str × τ)} (hn : (iv.map Prod.fst).Nodup)
    (hsame : ∀ p ∈ iv, next.get? p.1 = orig.get? p.1)
    (h : markLoop orig time iv next = .ok s') :
    s'.keys = next.keys ∧
    (∀ p ∈ iv, ∃ t, orig.get? p.1 = some t ∧ s'.get? p.1 =
      some (if time - t.last ≥ p.2 then { t with due := true, last := t.last + p.2 } else t)) ∧
    (∀ k, k ∉ iv.map Prod.fst → s'.get? k = next.get? k) := by
  induction iv generalizing next with
  | nil => cases h; exact ⟨rfl, by simp, by simp⟩
  | cons p iv ih =>
    obtain ⟨name, d⟩ := p
    have hn' := List.nodup_cons.1 hn
    simp only [markLoop, Outcome.bind_eq_ok, Schedule.lastPerformed, Outcome.map_eq_ok, at_ok] at h
    obtain ⟨l, ⟨t, ht, rfl⟩, h⟩ := h
    have hne : ∀ p ∈ iv, name ≠ p.1 := by
      rintro p hp rfl
      exact hn'.1 (List.mem_map.2 ⟨p, hp, rfl⟩)
    by_cases hc : time - t.last ≥ d
    · simp only [hc, if_true, Outcome.bind_eq_ok, markAsDue_ok] at h
      obtain ⟨next', ⟨t', ht', rfl⟩, h⟩ := h
      have hs0 := hsame (name, d) List.mem_cons_self
      have : t' = t := by
        have hs1 : next.get? name = orig.get? name := hs0
        rw [ht'] at hs1; rw [ht] at hs1; exact Option.some.inj hs1
      subst this
      have hk : name ∈ next.keys := SMap.get?_isSome.1 (by rw [ht']; rfl)
      obtain ⟨i1, i2, i3⟩ := ih hn'.2 (fun p hp => by
        rw [SMap.get?_set, if_neg (hne p hp)]
        exact hsame p (List.mem_cons_of_mem _ hp)) h
      refine ⟨by rw [i1, SMap.keys_set_mem _ hk], ?_, ?_⟩
      · intro p hp
        rcases List.mem_cons.1 hp with rfl | hp
        · refine ⟨t', ht, ?_⟩
          rw [i3 name hn'.1, SMap.get?_set, if_pos rfl, if_pos hc]
        · exact i2 p hp
      · intro k hk
        simp only [List.map_cons, List.mem_cons, not_or] at hk
        rw [i3 k hk.2, SMap.get?_set, if_neg (fun e => hk.1 e.symm)]
    · simp only [hc, if_false] at h
      obtain ⟨i1, i2, i3⟩ := ih hn'.2 (fun p hp => hsame p (List.mem_cons_of_mem _ hp)) h
      refine ⟨i1, ?_, ?_⟩
      · intro p hp
        rcases List.mem_cons.1 hp with rfl | hp
        · refine ⟨t, ht, ?_⟩
          rw [i3 name hn'.1, if_neg hc]
          have := hsame (name, d) List.mem_cons_self
          rw [show next.get? name = orig.get? name from this, ht]
        · exact i2 p hp
      · intro k hk
        simp only [List.map_cons, List.mem_cons, not_or] at hk
        exact i3 k hk.2

theorem markTasks_ok [Add τ] [Sub τ] [LinearOrder τ] {s s' : Schedule τ} {time : τ}
    {iv : List (Str × τ)} (hn : (iv.map Prod.fst).Nodup) (h : markTasks s time iv = .ok s') :
    s'.keys = s.keys ∧
    (∀ p ∈ iv, ∃ t, s.get? p.1 = some t ∧ s'.get? p.1 =
      some (if time - t.last ≥ p.2 then { t with due := true, last := t.last + p.2 } else t)) ∧
    (∀ k, k ∉ iv.map Prod.fst → s'.get? k = s.get? k) :=
  markLoop_ok hn (fun _ _ => rfl) h

/-! ### Storage -/

theorem readLoop_eq (g : SMap (StoredTask τ)) (s : Schedule τ) :
    readLoop s g = g.foldl (fun a p => a.set p.1 ⟨p.1, p.2.num, p.2.last, false⟩) s := by
  induction g generalizing s with
  | nil => rfl
  | cons p g ih => obtain ⟨k, t⟩ := p; exact ih _

theorem readSchedule_write {s : Schedule τ} (hw : s.WF) :
    readSchedule (writeSchedule s) = s.map fun p => (p.1, ⟨p.1, p.2.num, p.2.last, false⟩) := by
  have hk : SMap.WF (writeSchedule s) := by
    unfold SMap.WF
    have : SMap.keys (writeSchedule s) = s.keys :=
      SMap.keys_map s (fun _ t => (⟨t.name, t.num, t.last⟩ : StoredTask τ))
    rw [this]; exact hw
  have h := SMap.foldl_set hk
    (fun (k : Str) (t : StoredTask τ) => (⟨k, t.num, t.last, false⟩ : TaskRec τ)) []
    (by intro k _; simp [SMap.keys])
  rw [readSchedule, readLoop_eq, h]
  simp [writeSchedule]

/-! ### Cadence -/

/-- One step of the loop for one task: marked when the time has come, then performed. -/
theorem cadence_step [Field τ] [LinearOrder τ] [IsStrictOrderedRing τ] {d T T' : τ} {c : Nat}
    (hd : T' ≤ T + d) (hm : T ≤ T') (h1 : (c : τ) * d ≤ T) (h2 : T < ((c : τ) + 1) * d) :
    if T' - (c : τ) * d ≥ d then ((c + 1 : Nat) : τ) * d ≤ T' ∧ T' < (((c + 1 : Nat) : τ) + 1) * d
    else (c : τ) * d ≤ T' ∧ T' < ((c : τ) + 1) * d := by
  split
  · rename_i h
    push_cast
    constructor <;> nlinarith
  · rename_i h
    push Not at h
    constructor <;> nlinarith

end Verif.Sched
