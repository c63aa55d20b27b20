import Verif.Spec.Requests
import Verif.Props.Handles

/-!
# Requests are completed or cancelled exactly once (C48)
-/

namespace Verif.Requests
open St

/-- What always holds. -/
structure Inv (s : St) : Prop where
  held : ∀ v i, s.has v i → i < s.next ∧ Pending (s.calls i)
  inj : ∀ v w i, s.has v i → s.has w i → v = w
  free : ∀ i < s.next, (∃ v, s.has v i) ∨ Finished (s.calls i)
  new : ∀ i, s.next ≤ i → s.calls i = []

theorem inv_init : Inv St.init := by
  constructor <;> simp [St.init, St.has, St.calls]

theorem calls_call (s : St) (i j : Nat) (c : Call) :
    (s.call i c).calls j = if j = i then s.calls j ++ [c] else s.calls j := by
  simp only [St.calls, St.call, List.filter_append, List.map_append]
  by_cases h : j = i
  · subst h; simp
  · simp [h, Ne.symm h]

theorem calls_setVar (s : St) (v : Nat) (x) (j : Nat) : (s.setVar v x).calls j = s.calls j := rfl

theorem has_setVar (s : St) (v : Nat) (x) (u i : Nat) :
    (s.setVar v x).has u i ↔ if u = v then x = some (some i) else s.has u i := by
  simp only [St.has, St.setVar]
  split <;> rfl

theorem has_call (s : St) (j : Nat) (c : Call) (u i : Nat) : (s.call j c).has u i ↔ s.has u i := Iff.rfl

/-- An object that has no request is given none, or ends. -/
theorem inv_idle {s : St} (h : Inv s) (v : Nat) (y : Option (Option Nat)) (hy : ∀ i, y ≠ some (some i))
    (hv : ∀ i, ¬s.has v i) : Inv (s.setVar v y) := by
  refine ⟨?_, ?_, ?_, h.new⟩
  · intro u i hu
    rw [has_setVar] at hu
    split at hu
    · exact absurd hu (hy i)
    · exact h.held u i hu
  · intro u w i hu hw
    rw [has_setVar] at hu hw
    split at hu
    · exact absurd hu (hy i)
    · split at hw
      · exact absurd hw (hy i)
      · exact h.inj u w i hu hw
  · intro i hi
    rcases h.free i hi with ⟨u, hu⟩ | h1
    · left
      refine ⟨u, ?_⟩
      rw [has_setVar, if_neg]
      · exact hu
      · intro e; subst e; exact hv i hu
    · exact Or.inr h1

theorem inv_start {s : St} (h : Inv s) (v : Nat) (hv : ∀ i, ¬s.has v i) :
    Inv ({ s.call s.next .start with next := s.next + 1 }.setVar v (some (some s.next))) := by
  have hcalls : ∀ j, ({ s.call s.next .start with next := s.next + 1 }.setVar v
      (some (some s.next)) : St).calls j = (s.call s.next .start).calls j := fun _ => rfl
  refine ⟨?_, ?_, ?_, ?_⟩
  · intro u i hu
    rw [has_setVar] at hu
    rw [hcalls, calls_call]
    split at hu
    · simp only [Option.some.injEq] at hu
      subst hu
      refine ⟨Nat.lt_succ_self _, ?_⟩
      rw [if_pos rfl, h.new _ le_rfl]
      exact ⟨0, rfl⟩
    · have h1 := h.held u i hu
      rw [if_neg (by omega)]
      exact ⟨Nat.lt_succ_of_lt h1.1, h1.2⟩
  · intro u w i hu hw
    rw [has_setVar] at hu hw
    split at hu
    · rename_i e1
      simp only [Option.some.injEq] at hu
      split at hw
      · rename_i e2; rw [e1, e2]
      · have := (h.held w i hw).1
        omega
    · split at hw
      · simp only [Option.some.injEq] at hw
        have := (h.held u i hu).1
        omega
      · exact h.inj u w i hu hw
  · intro i hi
    rw [hcalls, calls_call]
    by_cases hin : i = s.next
    · left
      exact ⟨v, by rw [has_setVar, if_pos rfl, hin]⟩
    · have hi' : i < s.next := by
        have : i < s.next + 1 := hi
        omega
      rw [if_neg hin]
      rcases h.free i hi' with ⟨u, hu⟩ | h1
      · left
        refine ⟨u, ?_⟩
        rw [has_setVar, if_neg]
        · exact hu
        · intro e; subst e; exact hv i hu
      · exact Or.inr h1
  · intro i hi
    have hi' : s.next + 1 ≤ i := hi
    rw [hcalls, calls_call, if_neg (by omega)]
    exact h.new i (by omega)

theorem inv_move {s : St} (h : Inv s) (v w : Nat) (x : Option Nat) (hw : s.vars w = some x)
    (hv : ∀ i, ¬s.has v i) : Inv ((s.setVar v (some x)).setVar w (some none)) := by
  have key : ∀ u i, ((s.setVar v (some x)).setVar w (some none)).has u i ↔
      u ≠ w ∧ ((u = v ∧ s.has w i) ∨ (u ≠ v ∧ s.has u i)) := by
    intro u i
    rw [has_setVar]
    by_cases h1 : u = w
    · simp [h1]
    · rw [if_neg h1, has_setVar]
      by_cases h2 : u = v
      · subst h2
        simp [h1, St.has, hw]
      · simp [h1, h2]
  refine ⟨?_, ?_, ?_, h.new⟩
  · intro u i hu
    rw [key] at hu
    rcases hu.2 with h1 | h1
    · exact h.held _ i h1.2
    · exact h.held _ i h1.2
  · intro u u' i hu hu'
    rw [key] at hu hu'
    rcases hu.2 with h1 | h1 <;> rcases hu'.2 with h2 | h2
    · rw [h1.1, h2.1]
    · exact absurd (h.inj _ _ i h2.2 h1.2) hu'.1
    · exact absurd (h.inj _ _ i h1.2 h2.2) hu.1
    · exact h.inj _ _ i h1.2 h2.2
  · intro i hi
    rcases h.free i hi with ⟨u, hu⟩ | h1
    · left
      by_cases huw : u = w
      · subst huw
        refine ⟨v, (key v i).2 ⟨?_, Or.inl ⟨rfl, hu⟩⟩⟩
        intro e; subst e; exact hv i hu
      · refine ⟨u, (key u i).2 ⟨huw, Or.inr ⟨?_, hu⟩⟩⟩
        intro e; subst e; exact hv i hu
    · exact Or.inr h1

/-- The request of `v` is finished. -/
theorem inv_finish {s s' : St} (h : Inv s) (v i : Nat) (hv : s.has v i) (y : Option (Option Nat))
    (hy : ∀ i, y ≠ some (some i)) (hn : s'.next = s.next) (hvars : s'.vars = s.vars)
    (hi : Finished (s'.calls i)) (hcalls : ∀ j, j ≠ i → s'.calls j = s.calls j) :
    Inv (s'.setVar v y) := by
  have key : ∀ u j, (s'.setVar v y).has u j ↔ u ≠ v ∧ s.has u j := by
    intro u j
    rw [has_setVar]
    split
    · rename_i e
      simp [e, hy j]
    · rename_i e
      simp [e, St.has, hvars]
  refine ⟨?_, ?_, ?_, ?_⟩
  · intro u j hu
    rw [key] at hu
    have hji : j ≠ i := by
      intro e; subst e
      exact hu.1 (h.inj u v j hu.2 hv)
    have h1 := h.held u j hu.2
    rw [calls_setVar, hcalls j hji]
    exact ⟨by simpa [St.setVar, hn] using h1.1, h1.2⟩
  · intro u w j hu hw
    rw [key] at hu hw
    exact h.inj u w j hu.2 hw.2
  · intro j hj
    rw [calls_setVar]
    by_cases hji : j = i
    · subst hji; exact Or.inr hi
    · rw [hcalls j hji]
      have hj' : j < s.next := by simpa [St.setVar, hn] using hj
      rcases h.free j hj' with ⟨u, hu⟩ | h1
      · left
        refine ⟨u, (key u j).2 ⟨?_, hu⟩⟩
        intro e; subst e
        have e2 : some (some j) = some (some i) := by rw [← hu, ← hv]
        simp only [Option.some.injEq] at e2
        exact hji e2
      · exact Or.inr h1
  · intro j hj
    have hj' : s.next ≤ j := by simpa [St.setVar, hn] using hj
    have hji : j ≠ i := by
      have := (h.held v i hv).1
      omega
    rw [calls_setVar, hcalls j hji]
    exact h.new j hj'

theorem inv_cancel {s : St} (h : Inv s) (v i : Nat) (hv : s.has v i) (y : Option (Option Nat))
    (hy : ∀ i, y ≠ some (some i)) : Inv (((s.call i .cancel).call i .free).setVar v y) := by
  refine inv_finish h v i hv y hy rfl rfl ?_ ?_
  · obtain ⟨n, hn⟩ := (h.held v i hv).2
    refine ⟨n, Or.inr ?_⟩
    rw [calls_call, if_pos rfl, calls_call, if_pos rfl, hn]
    simp
  · intro j hj
    rw [calls_call, if_neg hj, calls_call, if_neg hj]

theorem inv_wait {s : St} (h : Inv s) (v i : Nat) (hv : s.has v i) :
    Inv ((s.call i .wait).setVar v (some none)) := by
  refine inv_finish h v i hv _ (by simp) rfl rfl ?_ ?_
  · obtain ⟨n, hn⟩ := (h.held v i hv).2
    refine ⟨n, Or.inl ?_⟩
    rw [calls_call, if_pos rfl, hn]
  · intro j hj
    rw [calls_call, if_neg hj]

theorem inv_ready {s : St} (h : Inv s) (v i : Nat) (hv : s.has v i) : Inv (s.call i .status) := by
  refine ⟨?_, h.inj, ?_, ?_⟩
  · intro u j hu
    have h1 := h.held u j hu
    refine ⟨h1.1, ?_⟩
    rw [calls_call]
    split
    · obtain ⟨n, hn⟩ := h1.2
      exact ⟨n + 1, by rw [hn, List.replicate_succ']; simp⟩
    · exact h1.2
  · intro j hj
    by_cases hji : j = i
    · left; exact ⟨v, by rw [hji]; exact hv⟩
    · rw [calls_call, if_neg hji]
      exact h.free j hj
  · intro j hj
    have hji : j ≠ i := by
      have := (h.held v i hv).1
      have : s.next ≤ j := hj
      omega
    rw [calls_call, if_neg hji]
    exact h.new j hj

theorem setVar_setVar (s : St) (v : Nat) (x y : Option (Option Nat)) :
    (s.setVar v x).setVar v y = s.setVar v y := by
  simp only [St.setVar]
  congr 1
  funext u
  split <;> simp_all

/-- `cancel` of an object leaves it without a request. -/
theorem inv_cancelVar {s : St} (h : Inv s) (v : Nat) (x : Option Nat) (hv : s.vars v = some x) :
    Inv (s.cancelVar v x) ∧ (s.cancelVar v x).vars v = some none := by
  cases x with
  | none => exact ⟨h, hv⟩
  | some i => exact ⟨inv_cancel h v i hv _ (by simp), by simp [St.cancelVar, St.setVar]⟩

theorem inv_step {s s' : St} {op : Op} (h : Inv s) (hs : step s op = some s') : Inv s' := by
  have idle : ∀ v, s.vars v = none → ∀ i, ¬s.has v i := by
    intro v hv i hi
    rw [St.has, hv] at hi
    cases hi
  cases op with
  | new v =>
    simp only [step] at hs
    split at hs
    · cases hs
    · rename_i hv
      simp only [Option.some.injEq] at hs; subst hs
      exact inv_idle h v _ (by simp) (idle v hv)
  | start v =>
    simp only [step] at hs
    split at hs
    · cases hs
    · rename_i hv
      simp only [Option.some.injEq] at hs; subst hs
      exact inv_start h v (idle v hv)
  | move v w =>
    simp only [step] at hs
    split at hs
    · rename_i x hv hw
      simp only [Option.some.injEq] at hs; subst hs
      exact inv_move h v w x hw (idle v hv)
    · cases hs
  | moveAssign v w =>
    simp only [step] at hs
    split at hs
    · rename_i y _ hv hw
      obtain ⟨h1, h2⟩ := inv_cancelVar h v y hv
      split at hs
      · rename_i x hx
        simp only [Option.some.injEq] at hs; subst hs
        exact inv_move h1 v w x hx (fun i hi => by rw [St.has, h2] at hi; cases hi)
      · cases hs
    · cases hs
  | cancel v =>
    simp only [step] at hs
    split at hs
    · cases hs
    · rename_i x hv
      simp only [Option.some.injEq] at hs; subst hs
      exact (inv_cancelVar h v x hv).1
  | ready v =>
    simp only [step] at hs
    split at hs
    · cases hs
    · simp only [Option.some.injEq] at hs; subst hs; exact h
    · rename_i i hv
      simp only [Option.some.injEq] at hs; subst hs
      exact inv_ready h v i hv
  | wait v =>
    simp only [step] at hs
    split at hs
    · cases hs
    · rename_i x hv
      simp only [Option.some.injEq] at hs; subst hs
      cases x with
      | none => exact h
      | some i => exact inv_wait h v i hv
  | destroy v =>
    simp only [step] at hs
    split at hs
    · cases hs
    · rename_i x hv
      simp only [Option.some.injEq] at hs; subst hs
      obtain ⟨h1, h2⟩ := inv_cancelVar h v x hv
      exact inv_idle h1 v _ (by simp) (fun i hi => by rw [St.has, h2] at hi; cases hi)

/-- **C48.** Whatever a program does with requests: a request that was started is in the hands of exactly
one object and has only been looked at since, or it has been waited for once or cancelled once, in no
object's hands, and not touched afterwards. -/
theorem requests_once {ops : List Op} {s : St} (h : run St.init ops = some s) (i : Nat) :
    (i < s.next → (∃! v, s.has v i) ∧ Pending (s.calls i) ∨ (∀ v, ¬s.has v i) ∧ Finished (s.calls i)) ∧
      (s.next ≤ i → s.calls i = []) := by
  have key : ∀ (ops : List Op) (s₀ : St), Inv s₀ → run s₀ ops = some s → Inv s := by
    intro ops
    induction ops with
    | nil => intro s₀ h0 hr; simp only [run, Option.some.injEq] at hr; exact hr ▸ h0
    | cons op ops ih =>
      intro s₀ h0 hr
      simp only [run] at hr
      obtain ⟨s₁, h1, h2⟩ := Option.bind_eq_some_iff.1 hr
      exact ih s₁ (inv_step h0 h1) h2
  have hc := key ops _ inv_init h
  refine ⟨fun hi => ?_, hc.new i⟩
  by_cases hex : ∃ v, s.has v i
  · obtain ⟨v, hv⟩ := hex
    exact Or.inl ⟨⟨v, hv, fun w hw => hc.inj w v i hw hv⟩, (hc.held v i hv).2⟩
  · refine Or.inr ⟨fun v hv => hex ⟨v, hv⟩, ?_⟩
    rcases hc.free i hi with h1 | h1
    · exact absurd h1 hex
    · exact h1

example : ∃ s, run St.init [.start 0, .start 1, .ready 0, .moveAssign 0 1, .wait 0] = some s ∧
    ((∃! v, s.has v 0) ∧ Pending (s.calls 0) ∨ (∀ v, ¬s.has v 0) ∧ Finished (s.calls 0)) :=
  ⟨_, rfl, (requests_once (ops := [.start 0, .start 1, .ready 0, .moveAssign 0 1, .wait 0]) rfl 0).1 (by decide)⟩

/-- **C48**, the end: when all request objects are gone, every request has been waited for or cancelled. -/
theorem requests_finished {ops : List Op} {s : St} (h : run St.init ops = some s)
    (hn : ∀ v, s.vars v = none) (i : Nat) (hi : i < s.next) : Finished (s.calls i) := by
  rcases (requests_once h i).1 hi with ⟨⟨v, hv, _⟩, _⟩ | h1
  · simp only [St.has] at hv
    rw [hn v] at hv
    cases hv
  · exact h1.2

/-- A history with moves onto a pending request and onto itself, waiting and cancelling. -/
example : ∃ s, run St.init [.start 0, .start 1, .ready 0, .moveAssign 0 1, .wait 0, .wait 0, .start 2,
      .moveAssign 2 2, .start 3, .move 4 3, .destroy 3, .destroy 4, .destroy 0, .destroy 1, .destroy 2] =
      some s ∧ s.next = 4 ∧ s.calls 0 = [.start, .status, .cancel, .free] ∧ s.calls 1 = [.start, .wait] ∧
      s.calls 2 = [.start, .cancel, .free] ∧ s.calls 3 = [.start, .cancel, .free] :=
  ⟨_, rfl, rfl, rfl, rfl, rfl, rfl⟩

/-! ## Buffers -/

/-- Every message is long. -/
def AllLong (sso : Nat) (ops : List BOp) : Prop := ∀ v len, BOp.start v len ∈ ops → sso < len

theorem told_step {sso : Nat} {s s' : BSt} {op : BOp} (hi : Inv s.base)
    (h : ∀ v i, s.base.has v i → s.block v = some i ∧ s.told i = .heap i)
    (hl : ∀ v len, op = .start v len → sso < len) (hs : bstep sso s op = some s') :
    Inv s'.base ∧ ∀ v i, s'.base.has v i → s'.block v = some i ∧ s'.told i = .heap i := by
  cases op with
  | start v len =>
    simp only [bstep] at hs
    obtain ⟨base, hb, hs⟩ := Option.map_eq_some_iff.1 hs
    have hlong := hl v len rfl
    rw [if_neg (by omega)] at hs
    subst hs
    refine ⟨inv_step hi hb, fun u i hu => ?_⟩
    simp only [step] at hb
    split at hb
    · cases hb
    · simp only [Option.some.injEq] at hb
      subst hb
      rw [has_setVar] at hu
      dsimp only
      by_cases huv : u = v
      · rw [if_pos huv] at hu ⊢
        simp only [Option.some.injEq] at hu
        subst hu
        exact ⟨rfl, if_pos rfl⟩
      · rw [if_neg huv] at hu ⊢
        have hu' : s.base.has u i := hu
        have := (hi.held u i hu').1
        rw [if_neg (by omega)]
        exact h u i hu'
  | other op =>
    have hmove : ∀ v w (base : St), Inv base →
        (∀ u i, base.has u i → u ≠ w ∧ ((u = v ∧ s.base.has w i) ∨ (u ≠ v ∧ s.base.has u i))) →
        ∀ u i, base.has u i → (if u = w then none else if u = v then s.block w else s.block u) = some i ∧
          s.told i = .heap i := by
      intro v w base _ hk u i hu
      obtain ⟨h1, h2 | h2⟩ := hk u i hu
      · rw [if_neg h1, if_pos h2.1]
        exact h w i h2.2
      · rw [if_neg h1, if_neg h2.1]
        exact h u i h2.2
    cases op with
    | start v => cases hs
    | move v w =>
      simp only [bstep] at hs
      obtain ⟨base, hb, hs⟩ := Option.map_eq_some_iff.1 hs
      subst hs
      have hinv := inv_step hi hb
      refine ⟨hinv, hmove v w base hinv fun u i hu => ?_⟩
      simp only [step] at hb
      split at hb
      · rename_i x hv hw
        simp only [Option.some.injEq] at hb
        subst hb
        rw [has_setVar] at hu
        split at hu
        · cases hu
        · rename_i h1
          rw [has_setVar] at hu
          split at hu
          · rename_i h2
            exact ⟨h1, Or.inl ⟨h2, by rw [St.has, hw]; exact hu⟩⟩
          · rename_i h2
            exact ⟨h1, Or.inr ⟨h2, hu⟩⟩
      · cases hb
    | moveAssign v w =>
      simp only [bstep] at hs
      obtain ⟨base, hb, hs⟩ := Option.map_eq_some_iff.1 hs
      subst hs
      have hinv := inv_step hi hb
      refine ⟨hinv, hmove v w base hinv fun u i hu => ?_⟩
      simp only [step] at hb
      split at hb
      · rename_i y _ hv hw
        have hcv : ∀ u i, (s.base.cancelVar v y).has u i → u ≠ v ∧ s.base.has u i := by
          intro u i hu
          cases y with
          | none =>
            refine ⟨?_, hu⟩
            intro e; subst e
            have hu' : s.base.vars u = some (some i) := hu
            rw [hv] at hu'
            cases hu'
          | some j =>
            simp only [St.cancelVar] at hu
            rw [has_setVar] at hu
            split at hu
            · cases hu
            · rename_i hne
              exact ⟨hne, hu⟩
        split at hb
        · rename_i x hx
          simp only [Option.some.injEq] at hb
          subst hb
          rw [has_setVar] at hu
          split at hu
          · cases hu
          · rename_i h1
            rw [has_setVar] at hu
            split at hu
            · rename_i h2
              have hw' : (s.base.cancelVar v y).has w i := by rw [St.has, hx]; exact hu
              exact ⟨h1, Or.inl ⟨h2, (hcv w i hw').2⟩⟩
            · rename_i h2
              exact ⟨h1, Or.inr ⟨h2, (hcv u i hu).2⟩⟩
        · cases hb
      · cases hb
    | new v =>
      simp only [bstep] at hs
      obtain ⟨base, hb, hs⟩ := Option.map_eq_some_iff.1 hs
      subst hs
      refine ⟨inv_step hi hb, fun u i hu => ?_⟩
      simp only [step] at hb
      split at hb
      · cases hb
      · simp only [Option.some.injEq] at hb
        subst hb
        rw [has_setVar] at hu
        dsimp only
        split at hu
        · cases hu
        · rename_i h1
          rw [if_neg h1]
          exact h u i hu
    | destroy v =>
      simp only [bstep] at hs
      obtain ⟨base, hb, hs⟩ := Option.map_eq_some_iff.1 hs
      subst hs
      refine ⟨inv_step hi hb, fun u i hu => ?_⟩
      simp only [step] at hb
      split at hb
      · cases hb
      · rename_i x hv
        simp only [Option.some.injEq] at hb
        subst hb
        rw [has_setVar] at hu
        dsimp only
        split at hu
        · cases hu
        · rename_i h1
          rw [if_neg h1]
          cases x with
          | none => exact h u i hu
          | some j =>
            simp only [St.cancelVar] at hu
            rw [has_setVar, if_neg h1] at hu
            exact h u i hu
    | cancel v =>
      simp only [bstep] at hs
      obtain ⟨base, hb, hs⟩ := Option.map_eq_some_iff.1 hs
      subst hs
      refine ⟨inv_step hi hb, fun u i hu => ?_⟩
      simp only [step] at hb
      split at hb
      · cases hb
      · rename_i x hv
        simp only [Option.some.injEq] at hb
        subst hb
        cases x with
        | none => exact h u i hu
        | some j =>
          simp only [St.cancelVar] at hu
          rw [has_setVar] at hu
          split at hu
          · cases hu
          · exact h u i hu
    | ready v =>
      simp only [bstep] at hs
      obtain ⟨base, hb, hs⟩ := Option.map_eq_some_iff.1 hs
      subst hs
      refine ⟨inv_step hi hb, fun u i hu => ?_⟩
      simp only [step] at hb
      split at hb
      · cases hb
      · simp only [Option.some.injEq] at hb
        subst hb
        exact h u i hu
      · simp only [Option.some.injEq] at hb
        subst hb
        exact h u i hu
    | wait v =>
      simp only [bstep] at hs
      obtain ⟨base, hb, hs⟩ := Option.map_eq_some_iff.1 hs
      subst hs
      refine ⟨inv_step hi hb, fun u i hu => ?_⟩
      simp only [step] at hb
      split at hb
      · cases hb
      · rename_i x hv
        simp only [Option.some.injEq] at hb
        subst hb
        cases x with
        | none => exact h u i hu
        | some j =>
          simp only [St.waitVar] at hu
          rw [has_setVar] at hu
          split at hu
          · cases hu
          · exact h u i hu

/-- **C80, as far as it holds.** If all messages are longer than what a string holds inside of itself, then
as long as a request is pending the memory that MPI was told of exists, and is the text of the string in the
object that has the request.  What is missing: `buffer_violated`. -/
theorem buffer_partial {sso : Nat} {ops : List BOp} {s : BSt} (hl : AllLong sso ops)
    (h : brun sso BSt.init ops = some s) (v i : Nat) (hv : s.base.has v i) :
    s.live (s.told i) ∧ ∃ b, s.block v = some b ∧ s.told i = .heap b := by
  have key : ∀ (ops : List BOp) (s₀ : BSt), AllLong sso ops → Inv s₀.base →
      (∀ v i, s₀.base.has v i → s₀.block v = some i ∧ s₀.told i = .heap i) → brun sso s₀ ops = some s →
      ∀ v i, s.base.has v i → s.block v = some i ∧ s.told i = .heap i := by
    intro ops
    induction ops with
    | nil => intro s₀ _ _ h1 hr; simp only [brun, Option.some.injEq] at hr; exact hr ▸ h1
    | cons op ops ih =>
      intro s₀ hl h0 h1 hr
      simp only [brun] at hr
      obtain ⟨s₁, g1, g2⟩ := Option.bind_eq_some_iff.1 hr
      obtain ⟨a, b⟩ := told_step h0 h1 (fun v len e => hl v len (by simp [e])) g1
      exact ih s₁ (fun v len hm => hl v len (by simp [hm])) a b g2
  obtain ⟨h1, h2⟩ := key ops _ hl inv_init (by intro v i hv; simp [BSt.init, St.init, St.has] at hv) h v i hv
  rw [h2]
  refine ⟨⟨v, ?_, h1⟩, i, h1, rfl⟩
  rw [St.has] at hv
  rw [hv]
  simp

/-- A long message whose request is moved twice. -/
example : ∃ s, AllLong 15 [.start 0 16, .other (.move 1 0), .other (.new 2), .other (.moveAssign 2 1)] ∧
    brun 15 BSt.init [.start 0 16, .other (.move 1 0), .other (.new 2), .other (.moveAssign 2 1)] = some s ∧
    s.base.has 2 0 ∧ s.told 0 = .heap 0 := by
  refine ⟨_, ?_, rfl, rfl, rfl⟩
  intro v len h
  simp at h
  omega

/-- **C80 is violated** by every short message, such as any scalar: as soon as `isend` or `irecv` returns, the
request is pending and MPI reads from, or writes to, memory that does not exist any more. -/
theorem buffer_violated (sso len : Nat) (h : len ≤ sso) :
    ∃ s, brun sso BSt.init [.start 0 len] = some s ∧ s.base.has 0 0 ∧ Pending (s.base.calls 0) ∧
      ¬s.live (s.told 0) := by
  have hr : brun sso BSt.init [.start 0 len] = some
      ⟨({ St.init.call 0 .start with next := 1 } : St).setVar 0 (some (some 0)),
        fun u => if u = 0 then none else none, fun j => if j = 0 then .param 0 else .param j⟩ := by
    simp only [brun, bstep, step, BSt.init, St.init, Option.map_some, if_pos h, Option.bind_some]
    rfl
  exact ⟨_, hr, rfl, ⟨0, rfl⟩, fun hlive => hlive⟩

/-! ## Communicators -/

open Verif.Handles

theorem comm_close {s : Handles.St} (h : Core s) (hk : Kept s) (v : Nat) (x : Option Nat)
    (hv : s.vars v = some x) :
    Core (closeComm s v x) ∧ Kept (closeComm s v x) ∧ (closeComm s v x).vars v = some none := by
  cases x with
  | none => exact ⟨h, hk, hv⟩
  | some i =>
    exact ⟨core_close h v i hv idle_some_none, kept_close hk v i hv, by simp [closeComm, Handles.St.setVar]⟩

theorem comm_dup {s : Handles.St} (h : Core s) (hk : Kept s) (v w : Nat) (x : Option Nat)
    (hw : s.vars w = some x) (hv : Idle (s.vars v)) : Core (dupComm s v x) ∧ Kept (dupComm s v x) := by
  cases x with
  | none => exact ⟨core_drop h v idle_some_none, kept_drop hk v hv⟩
  | some i =>
    have hi := h.held w i hw
    have h1 := core_alloc h v
    simp only [dupComm, hi, h.term, Bool.not_true, Bool.or_false]
    rw [core_terminated h1]
    exact ⟨h1, kept_alloc hk v hv⟩

theorem comm_step {s s' : Handles.St} {op : COp} (h : Core s) (hk : Kept s)
    (hs : commStep s op = some s') : Core s' ∧ Kept s' := by
  have idle : ∀ {s : Handles.St} {v}, s.vars v = none → Idle (s.vars v) :=
    fun hv => by rw [hv]; exact idle_none
  have idle' : ∀ {s : Handles.St} {v}, s.vars v = some none → Idle (s.vars v) :=
    fun hv => by rw [hv]; exact idle_some_none
  cases op with
  | new v =>
    simp only [commStep] at hs
    split at hs
    · cases hs
    · rename_i hv
      simp only [Option.some.injEq] at hs; subst hs
      exact ⟨core_drop h v idle_some_none, kept_drop hk v (idle hv)⟩
  | world v =>
    simp only [commStep] at hs
    split at hs
    · cases hs
    · rename_i hv
      simp only [Option.some.injEq] at hs; subst hs
      exact ⟨core_alloc h v, kept_alloc hk v (idle hv)⟩
  | copy v w =>
    simp only [commStep] at hs
    split at hs
    · rename_i x hv hw
      simp only [Option.some.injEq] at hs; subst hs
      exact comm_dup h hk v w x hw (idle hv)
    · cases hs
  | move v w =>
    simp only [commStep] at hs
    split at hs
    · rename_i x hv hw
      simp only [Option.some.injEq] at hs; subst hs
      exact ⟨core_move h v w x hw, kept_move hk v w x hw (idle hv)⟩
    · cases hs
  | assign v w =>
    simp only [commStep] at hs
    split at hs
    · rename_i y _ hv _
      obtain ⟨h1, h2, h3⟩ := comm_close h hk v y hv
      split at hs
      · rename_i x hx
        simp only [Option.some.injEq] at hs; subst hs
        exact comm_dup h1 h2 v w x hx (idle' h3)
      · cases hs
    · cases hs
  | moveAssign v w =>
    simp only [commStep] at hs
    split at hs
    · rename_i y _ hv _
      obtain ⟨h1, h2, h3⟩ := comm_close h hk v y hv
      split at hs
      · rename_i x hx
        simp only [Option.some.injEq] at hs; subst hs
        exact ⟨core_move h1 v w x hx, kept_move h2 v w x hx (idle' h3)⟩
      · cases hs
    · cases hs
  | close v =>
    simp only [commStep] at hs
    split at hs
    · cases hs
    · rename_i x hv
      simp only [Option.some.injEq] at hs; subst hs
      obtain ⟨h1, h2, _⟩ := comm_close h hk v x hv
      exact ⟨h1, h2⟩
  | destroy v =>
    simp only [commStep] at hs
    split at hs
    · cases hs
    · rename_i x hv
      simp only [Option.some.injEq] at hs; subst hs
      obtain ⟨h1, h2, h3⟩ := comm_close h hk v x hv
      exact ⟨core_drop h1 v idle_none, kept_drop h2 v (idle' h3)⟩

/-- **C48**, communicators: whatever a program does with them, none is freed twice or used after it was
freed, each open one belongs to exactly one object, and when all objects are gone all have been freed. -/
theorem communicators_once {ops : List COp} {s : Handles.St} (h : commRun Handles.St.init ops = some s) :
    s.closeLog.Nodup ∧ s.terminated = false ∧ (∀ i, s.isOpen i = true → ∃! v, s.vars v = some (some i)) ∧
      (∀ v i, s.vars v = some (some i) → s.isOpen i = true) ∧
      (s.noVars → s.closeLog.Perm (List.range s.next)) := by
  have key : ∀ (ops : List COp) (s₀ : Handles.St), Core s₀ → Kept s₀ → commRun s₀ ops = some s →
      Core s ∧ Kept s := by
    intro ops
    induction ops with
    | nil => intro s₀ h0 h0' hr; simp only [commRun, Option.some.injEq] at hr; exact hr ▸ ⟨h0, h0'⟩
    | cons op ops ih =>
      intro s₀ h0 h0' hr
      simp only [commRun] at hr
      obtain ⟨s₁, h1, h2⟩ := Option.bind_eq_some_iff.1 hr
      obtain ⟨a, b⟩ := comm_step h0 h0' h1
      exact ih s₁ a b h2
  obtain ⟨hc, hk⟩ := key ops _ core_init kept_init h
  refine ⟨hc.nodup, hc.term, fun i hi => ?_, hc.held, fun hn => ?_⟩
  · obtain ⟨v, hv⟩ := hk i hi
    exact ⟨v, hv, fun w hw => hc.inj w v i hw hv⟩
  · rw [List.perm_ext_iff_of_nodup hc.nodup List.nodup_range]
    intro i
    rw [List.mem_range]
    refine ⟨fun hi => (hc.log i hi).1, fun hi => ?_⟩
    rcases hc.all i hi with h1 | h1
    · obtain ⟨v, hv⟩ := hk i h1
      rw [hn v] at hv
      cases hv
    · exact h1

/-- Copies, assignments (to itself too), moves. -/
example : ∃ s, commRun Handles.St.init [.world 0, .copy 1 0, .assign 0 1, .assign 1 1, .new 2,
      .moveAssign 2 0, .close 2, .destroy 0, .destroy 1, .destroy 2] = some s ∧ s.next = 3 ∧
      s.closeLog = [0, 1, 2] :=
  ⟨_, rfl, rfl, rfl⟩

end Verif.Requests
