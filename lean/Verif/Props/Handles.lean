import Verif.Spec.Handles
import Mathlib.Data.List.Nodup
import Mathlib.Data.List.Perm.Basic
import Mathlib.Data.List.Range

/-!
# Identifiers are closed exactly once (C47)
-/

namespace Verif.Handles
open St

/-- What always holds if nothing is closed twice. -/
structure Core (s : St) : Prop where
  held : ∀ v i, s.vars v = some (some i) → s.isOpen i = true
  inj : ∀ v w i, s.vars v = some (some i) → s.vars w = some (some i) → v = w
  lt : ∀ i, s.isOpen i = true → i < s.next
  log : ∀ i ∈ s.closeLog, i < s.next ∧ s.isOpen i = false
  nodup : s.closeLog.Nodup
  all : ∀ i < s.next, s.isOpen i = true ∨ i ∈ s.closeLog
  term : s.terminated = false

/-- Nothing is leaked. -/
def Kept (s : St) : Prop := ∀ i, s.isOpen i = true → ∃ v, s.vars v = some (some i)

theorem core_init : Core St.init := by
  constructor <;> simp [St.init]

theorem kept_init : Kept St.init := by
  intro i h; simp [St.init] at h

/-- Not having an identifier. -/
def Idle (y : Option (Option Nat)) : Prop := ∀ i, y ≠ some (some i)

theorem core_drop {s : St} (h : Core s) (v : Nat) {y : Option (Option Nat)} (hy : Idle y) :
    Core (s.setVar v y) := by
  refine ⟨?_, ?_, h.lt, h.log, h.nodup, h.all, h.term⟩
  · intro u i hu
    simp only [setVar] at hu
    split at hu
    · exact absurd hu (hy i)
    · exact h.held u i hu
  · intro u w i hu hw
    simp only [setVar] at hu hw
    split at hu
    · exact absurd hu (hy i)
    · split at hw
      · exact absurd hw (hy i)
      · exact h.inj u w i hu hw

theorem kept_drop {s : St} (h : Kept s) (v : Nat) {y : Option (Option Nat)} (hv : Idle (s.vars v)) :
    Kept (s.setVar v y) := by
  intro i hi
  obtain ⟨u, hu⟩ := h i hi
  refine ⟨u, ?_⟩
  simp only [setVar]
  rw [if_neg]
  · exact hu
  · intro e
    subst e
    exact hv i hu

theorem core_alloc {s : St} (h : Core s) (v : Nat) : Core (s.alloc.setVar v (some (some s.next))) := by
  have hfresh : s.isOpen s.next = false := by
    cases hx : s.isOpen s.next with
    | false => rfl
    | true => exact absurd (h.lt _ hx) (lt_irrefl _)
  refine ⟨?_, ?_, ?_, ?_, h.nodup, ?_, h.term⟩
  · intro u i hu
    simp only [setVar, alloc] at hu ⊢
    split at hu
    · simp only [Option.some.injEq] at hu
      simp [← hu]
    · simp [h.held u i hu]
  · intro u w i hu hw
    simp only [setVar, alloc] at hu hw
    split at hu
    · rename_i e1
      simp only [Option.some.injEq] at hu
      split at hw
      · rename_i e2; rw [e1, e2]
      · exact absurd (h.held w i hw) (by rw [← hu, hfresh]; decide)
    · split at hw
      · simp only [Option.some.injEq] at hw
        exact absurd (h.held u i hu) (by rw [← hw, hfresh]; decide)
      · exact h.inj u w i hu hw
  · intro i hi
    simp only [setVar, alloc, Bool.or_eq_true, beq_iff_eq] at hi ⊢
    rcases hi with hi | hi
    · omega
    · have := h.lt i hi
      omega
  · intro i hi
    simp only [setVar, alloc] at hi ⊢
    have h1 := h.log i hi
    refine ⟨by omega, ?_⟩
    rw [Bool.or_eq_false_iff]
    exact ⟨by simp; omega, h1.2⟩
  · intro i hi
    simp only [setVar, alloc, Bool.or_eq_true, beq_iff_eq] at hi ⊢
    rcases Nat.lt_succ_iff_lt_or_eq.1 hi with h1 | h1
    · rcases h.all i h1 with h2 | h2
      · exact Or.inl (Or.inr h2)
      · exact Or.inr h2
    · exact Or.inl (Or.inl h1)

theorem kept_alloc {s : St} (h : Kept s) (v : Nat) (hv : Idle (s.vars v)) :
    Kept (s.alloc.setVar v (some (some s.next))) := by
  intro i hi
  simp only [setVar, alloc, Bool.or_eq_true, beq_iff_eq] at hi ⊢
  rcases hi with rfl | hi
  · exact ⟨v, by simp⟩
  · obtain ⟨u, hu⟩ := h i hi
    refine ⟨u, ?_⟩
    rw [if_neg]
    · exact hu
    · intro e; subst e; exact hv i hu

theorem core_move {s : St} (h : Core s) (v w : Nat) (x : Option Nat) (hw : s.vars w = some x) :
    Core ((s.setVar v (some x)).setVar w (some none)) := by
  refine ⟨?_, ?_, h.lt, h.log, h.nodup, h.all, h.term⟩
  · intro u i hu
    simp only [setVar] at hu
    split at hu
    · cases hu
    · split at hu
      · simp only [Option.some.injEq] at hu
        subst hu
        exact h.held w i hw
      · exact h.held u i hu
  · intro u u' i hu hu'
    simp only [setVar] at hu hu'
    split at hu
    · cases hu
    · rename_i n1
      split at hu'
      · cases hu'
      · rename_i n2
        split at hu
        · rename_i e1
          split at hu'
          · rename_i e2; rw [e1, e2]
          · simp only [Option.some.injEq] at hu
            subst hu
            exact absurd (h.inj u' w i hu' hw) n2
        · split at hu'
          · simp only [Option.some.injEq] at hu'
            subst hu'
            exact absurd (h.inj u w i hu hw) n1
          · exact h.inj u u' i hu hu'

theorem kept_move {s : St} (h : Kept s) (v w : Nat) (x : Option Nat) (hw : s.vars w = some x)
    (hv : Idle (s.vars v)) : Kept ((s.setVar v (some x)).setVar w (some none)) := by
  intro i hi
  obtain ⟨u, hu⟩ := h i hi
  by_cases huw : u = w
  · subst huw
    have hx : x = some i := by rw [hw] at hu; exact Option.some.inj hu
    refine ⟨v, ?_⟩
    have hvu : v ≠ u := by
      intro e; subst e
      exact hv i hu
    simp [setVar, hvu, hx]
  · have huv : u ≠ v := by
      intro e; subst e
      exact hv i hu
    exact ⟨u, by simp [setVar, huw, huv, hu]⟩

theorem core_close {s : St} (h : Core s) (v i : Nat) (hv : s.vars v = some (some i))
    {y : Option (Option Nat)} (hy : Idle y) : Core ((s.libClose i).setVar v y) := by
  have hi := h.held v i hv
  refine ⟨?_, ?_, ?_, ?_, ?_, ?_, h.term⟩
  · intro u j hu
    simp only [setVar, libClose] at hu ⊢
    split at hu
    · exact absurd hu (hy j)
    · rename_i hne
      have : j ≠ i := by
        intro e; subst e
        exact hne (h.inj u v j hu hv)
      simp [this, h.held u j hu]
  · intro u w j hu hw
    simp only [setVar, libClose] at hu hw
    split at hu
    · exact absurd hu (hy j)
    · split at hw
      · exact absurd hw (hy j)
      · exact h.inj u w j hu hw
  · intro j hj
    simp only [setVar, libClose, Bool.and_eq_true] at hj ⊢
    exact h.lt j hj.2
  · intro j hj
    simp only [setVar, libClose, List.mem_append, List.mem_singleton] at hj ⊢
    rcases hj with hj | rfl
    · have := h.log j hj
      exact ⟨this.1, by simp [this.2]⟩
    · exact ⟨h.lt _ hi, by simp⟩
  · simp only [setVar, libClose]
    refine List.nodup_append.2 ⟨h.nodup, by simp, ?_⟩
    intro a ha b hb e
    simp only [List.mem_singleton] at hb
    subst e; subst hb
    rw [(h.log _ ha).2] at hi
    exact Bool.noConfusion hi
  · intro j hj
    simp only [setVar, libClose] at hj ⊢
    by_cases hji : j = i
    · right; simp [hji]
    · rcases h.all j hj with h1 | h1
      · left; simp [hji, h1]
      · right; simp [h1]

theorem kept_close {s : St} (h : Kept s) (v i : Nat) (hv : s.vars v = some (some i))
    {y : Option (Option Nat)} : Kept ((s.libClose i).setVar v y) := by
  intro j hj
  simp only [setVar, libClose, Bool.and_eq_true, Bool.not_eq_true'] at hj
  obtain ⟨u, hu⟩ := h j hj.2
  refine ⟨u, ?_⟩
  simp only [setVar, libClose]
  rw [if_neg]
  · exact hu
  · intro e
    subst e
    rw [hv] at hu
    simp only [Option.some.injEq] at hu
    rw [hu] at hj
    simp at hj

theorem idle_none : Idle none := fun _ => by simp
theorem idle_some_none : Idle (some none) := fun _ => by simp

theorem setVar_setVar (s : St) (v : Nat) (x y : Option (Option Nat)) :
    (s.setVar v x).setVar v y = s.setVar v y := by
  simp only [setVar]
  congr 1
  funext u
  split <;> simp_all

theorem alloc_setVar (s : St) (v : Nat) (x : Option (Option Nat)) :
    (s.setVar v x).alloc = s.alloc.setVar v x := rfl

theorem core_terminated {s : St} (h : Core s) : ({ s with terminated := false } : St) = s := by
  have := h.term
  cases s
  simp_all

/-- Any operation on files, groups and datasets. -/
theorem core_link {s s' : St} {op : Op} (h : Core s) (hs : step .link s op = some s') : Core s' := by
  cases op with
  | new v =>
    simp only [step] at hs
    split at hs
    · cases hs
    · simp only [Option.some.injEq] at hs; subst hs; exact core_drop h v idle_some_none
  | «open» v =>
    simp only [step] at hs
    split at hs
    · cases hs
    · simp only [Option.some.injEq] at hs; subst hs; exact core_alloc h v
  | copy v w => simp only [step] at hs; split at hs <;> cases hs
  | move v w =>
    simp only [step] at hs
    split at hs
    · rename_i x _ hw
      simp only [Option.some.injEq] at hs; subst hs; exact core_move h v w x hw
    · cases hs
  | assign v w => simp only [step] at hs; split at hs <;> cases hs
  | moveAssign v w =>
    simp only [step] at hs
    split at hs
    · rename_i y x _ hw
      simp only [Option.some.injEq] at hs; subst hs; exact core_move h v w x hw
    · cases hs
  | close v =>
    simp only [step] at hs
    split at hs
    · cases hs
    · rename_i x hv
      simp only [Option.some.injEq] at hs; subst hs
      cases x with
      | none => exact h
      | some i => exact core_close h v i hv idle_some_none
  | destroy v =>
    simp only [step] at hs
    split at hs
    · cases hs
    · rename_i x hv
      simp only [Option.some.injEq] at hs; subst hs
      cases x with
      | none =>
        have h1 := core_drop h v idle_none
        simp only [closeVar, h.term, Bool.or_false]
        rw [core_terminated h1]
        exact h1
      | some i =>
        have h1 := core_close h v i hv idle_none
        simp only [closeVar, h.term, Bool.or_false, setVar_setVar]
        rw [core_terminated h1]
        exact h1

/-- **C47**, files, groups and datasets: whatever a program does with them, no identifier is closed twice,
nor one that was not opened, and a handle that has an identifier has an open one of its own. -/
theorem link_closed_once {ops : List Op} {s : St} (h : run .link St.init ops = some s) :
    s.closeLog.Nodup ∧ (∀ i ∈ s.closeLog, i < s.next) ∧ s.terminated = false ∧
      (∀ v i, s.vars v = some (some i) → s.isOpen i = true ∧ i ∉ s.closeLog) ∧
      ∀ v w i, s.vars v = some (some i) → s.vars w = some (some i) → v = w := by
  have key : ∀ (ops : List Op) (s₀ : St), Core s₀ → run .link s₀ ops = some s → Core s := by
    intro ops
    induction ops with
    | nil => intro s₀ h0 hr; simp only [run, Option.some.injEq] at hr; exact hr ▸ h0
    | cons op ops ih =>
      intro s₀ h0 hr
      simp only [run] at hr
      obtain ⟨s₁, h1, h2⟩ := Option.bind_eq_some_iff.1 hr
      exact ih s₁ (core_link h0 h1) h2
  have hc := key ops _ core_init h
  refine ⟨hc.nodup, fun i hi => (hc.log i hi).1, hc.term, fun v i hv => ⟨hc.held v i hv, fun hi => ?_⟩, hc.inj⟩
  have := hc.held v i hv
  rw [(hc.log i hi).2] at this
  cases this

example : ∃ s, run .link St.init [.open 0, .move 1 0, .open 2, .destroy 0, .destroy 1] = some s ∧ s.closeLog.Nodup ∧
    s.closeLog = [0] :=
  ⟨_, rfl, (link_closed_once (ops := [.open 0, .move 1 0, .open 2, .destroy 0, .destroy 1]) rfl).1, rfl⟩

/-- A careful use keeps everything in order. -/
theorem polite_step {k : Kind} {s s' : St} {op : Op} (h : Core s) (hk : Kept s) (hp : Polite k s op)
    (hs : step k s op = some s') : Core s' ∧ Kept s' := by
  have hcopy : ∀ v x, Idle (s.vars v) → (∀ i, x = some i → s.isOpen i = true) →
      ∀ s₁ i, s.libCopy x = some (s₁, i) →
      Core (s₁.setVar v (some (some i))) ∧ Kept (s₁.setVar v (some (some i))) := by
    intro v x hv _ s₁ i hc
    cases x with
    | none => simp [libCopy] at hc
    | some j =>
      simp only [libCopy] at hc
      split at hc
      · simp only [Option.some.injEq, Prod.mk.injEq] at hc
        obtain ⟨rfl, rfl⟩ := hc
        exact ⟨core_alloc h v, kept_alloc hk v hv⟩
      · cases hc
  cases op with
  | new v =>
    simp only [step] at hs
    split at hs
    · cases hs
    · rename_i hv
      have hi : Idle (s.vars v) := by rw [hv]; exact idle_none
      cases k <;> simp only [Option.some.injEq, reduceCtorEq] at hs <;> subst hs
      · exact ⟨core_drop h v idle_some_none, kept_drop hk v hi⟩
      · exact ⟨core_drop h v idle_some_none, kept_drop hk v hi⟩
      · exact ⟨core_alloc h v, kept_alloc hk v hi⟩
  | «open» v =>
    simp only [step] at hs
    split at hs
    · cases hs
    · rename_i hv
      simp only [Option.some.injEq] at hs; subst hs
      exact ⟨core_alloc h v, kept_alloc hk v (by rw [hv]; exact idle_none)⟩
  | copy v w =>
    simp only [step] at hs
    split at hs
    · rename_i x hv hw
      have hi : Idle (s.vars v) := by rw [hv]; exact idle_none
      have hx : ∀ i, x = some i → s.isOpen i = true := fun i e => h.held w i (by rw [hw, e])
      cases k
      · cases hs
      all_goals
        simp only at hs
        split at hs
        · rename_i s₁ i hc
          simp only [Option.some.injEq] at hs; subst hs
          exact hcopy v x hi hx s₁ i hc
        · simp only [Option.some.injEq] at hs; subst hs
          first
          | exact ⟨h, hk⟩
          | exact ⟨core_drop h v idle_some_none, kept_drop hk v hi⟩
    · cases hs
  | move v w =>
    simp only [step] at hs
    split at hs
    · rename_i x hv hw
      have hi : Idle (s.vars v) := by rw [hv]; exact idle_none
      have hx : ∀ i, x = some i → s.isOpen i = true := fun i e => h.held w i (by rw [hw, e])
      cases k
      case space =>
        simp only at hs
        split at hs
        · rename_i s₁ i hc
          simp only [Option.some.injEq] at hs; subst hs
          exact hcopy v x hi hx s₁ i hc
        · simp only [Option.some.injEq] at hs; subst hs
          exact ⟨h, hk⟩
      all_goals
        simp only [Option.some.injEq] at hs; subst hs
        exact ⟨core_move h v w x hw, kept_move hk v w x hw hi⟩
    · cases hs
  | assign v w =>
    simp only [step] at hs
    simp only [Polite] at hp
    split at hs
    · rename_i y x hv hw
      obtain ⟨hvw, hwn⟩ := hp
      obtain ⟨j, rfl⟩ : ∃ j, x = some j := by
        cases x with
        | none => exact absurd hw hwn
        | some j => exact ⟨j, rfl⟩
      have hjo := h.held w j hw
      -- after closing, the other one is still open
      have hgo : ∀ s₁ : St, Core s₁ → Kept s₁ → s₁.vars w = some (some j) → Idle (s₁.vars v) →
          Core (s₁.alloc.setVar v (some (some s₁.next))) ∧ Kept (s₁.alloc.setVar v (some (some s₁.next))) :=
        fun s₁ a b _ d => ⟨core_alloc a v, kept_alloc b v d⟩
      cases y with
      | none =>
        have hi : Idle (s.vars v) := by rw [hv]; exact idle_some_none
        cases k <;> simp only [reduceCtorEq] at hs
        all_goals
          simp only [closeVar, libCopy, hjo, if_true, Bool.false_eq_true, if_false,
            Option.some.injEq] at hs
          subst hs
          exact hgo s h hk hw hi
      | some i =>
        have hio := h.held v i hv
        have hne : j ≠ i := by
          intro e; subst e
          exact hvw (h.inj v w j hv hw)
        have hjc : (s.libClose i).isOpen j = true := by simp [libClose, hne, hjo]
        have c1 := core_close h v i hv idle_some_none
        have c2 := kept_close hk v i hv (y := some none)
        have hres := hgo _ c1 c2 (by simp [setVar, libClose, Ne.symm hvw, hw]) (by
          simp [setVar]; exact idle_some_none)
        rw [alloc_setVar, setVar_setVar] at hres
        cases k <;> simp only [reduceCtorEq] at hs
        · simp only [closeVar, libCopy, hjc, if_true, Bool.false_eq_true, if_false,
            Option.some.injEq] at hs
          subst hs
          exact hres
        · simp only [closeVar, libCopy, hjc, hio, Bool.not_true, if_true, Bool.false_eq_true, if_false,
            Option.some.injEq] at hs
          subst hs
          exact hres
    · cases hs
  | moveAssign v w =>
    simp only [step] at hs
    simp only [Polite] at hp
    split at hs
    · rename_i y x hv hw
      cases k <;> simp only [Option.some.injEq, reduceCtorEq] at hs
      subst hs
      exact ⟨core_move h v w x hw, kept_move hk v w x hw (by rw [hp]; exact idle_some_none)⟩
    · cases hs
  | close v =>
    simp only [Polite] at hp
    subst hp
    refine ⟨core_link h hs, ?_⟩
    simp only [step] at hs
    split at hs
    · cases hs
    · rename_i x hv
      simp only [Option.some.injEq] at hs; subst hs
      cases x with
      | none => exact hk
      | some i => exact kept_close hk v i hv
  | destroy v =>
    simp only [step] at hs
    split at hs
    · cases hs
    · rename_i x hv
      simp only [Option.some.injEq] at hs; subst hs
      cases x with
      | none =>
        have h1 := core_drop h v idle_none
        have h2 := kept_drop hk v (y := none) (by rw [hv]; exact idle_some_none)
        simp only [closeVar, h.term, Bool.or_false]
        rw [core_terminated h1]
        exact ⟨h1, h2⟩
      | some i =>
        have h1 := core_close h v i hv idle_none
        have h2 := kept_close hk v i hv (y := none)
        have hio := h.held v i hv
        cases k <;>
        · simp only [closeVar, h.term, Bool.or_false, setVar_setVar, hio, Bool.not_true]
          rw [core_terminated h1]
          exact ⟨h1, h2⟩

theorem polite_run {k : Kind} : ∀ {ops : List Op} {s s' : St}, Core s → Kept s → PoliteRun k s ops →
    run k s ops = some s' → Core s' ∧ Kept s' := by
  intro ops
  induction ops with
  | nil => intro s s' h hk _ hr; simp only [run, Option.some.injEq] at hr; exact hr ▸ ⟨h, hk⟩
  | cons op ops ih =>
    intro s s' h hk hp hr
    simp only [run] at hr
    obtain ⟨s₁, h1, h2⟩ := Option.bind_eq_some_iff.1 hr
    obtain ⟨a, b⟩ := polite_step h hk hp.1 h1
    exact ih a b (hp.2 s₁ h1) h2

/-- **C47, as far as it holds.** If handles are used with care (`PoliteRun`), then nothing is closed twice,
everything that is open belongs to some handle, and once all handles are gone every identifier that was
ever opened has been closed, exactly once.
What is missing: without care this is false, see the theorems below. -/
theorem handles_once_partial {k : Kind} {ops : List Op} {s : St} (hp : PoliteRun k St.init ops)
    (h : run k St.init ops = some s) :
    s.closeLog.Nodup ∧ s.terminated = false ∧ (∀ i, s.isOpen i = true → ∃ v, s.vars v = some (some i)) ∧
      (s.noVars → s.closeLog.Perm (List.range s.next)) := by
  obtain ⟨hc, hk⟩ := polite_run core_init kept_init hp h
  refine ⟨hc.nodup, hc.term, hk, fun hn => ?_⟩
  rw [List.perm_ext_iff_of_nodup hc.nodup List.nodup_range]
  intro i
  rw [List.mem_range]
  constructor
  · exact fun hi => (hc.log i hi).1
  · intro hi
    rcases hc.all i hi with h1 | h1
    · obtain ⟨v, hv⟩ := hk i h1
      rw [hn v] at hv
      cases hv
    · exact h1

/-- The hypotheses can be met, and all handles be gone. -/
example : ∃ s, PoliteRun .type St.init [.open 0, .copy 1 0, .new 2, .assign 2 1, .assign 2 0, .move 3 0,
      .destroy 0, .destroy 1, .destroy 2, .destroy 3] ∧
    run .type St.init [.open 0, .copy 1 0, .new 2, .assign 2 1, .assign 2 0, .move 3 0,
      .destroy 0, .destroy 1, .destroy 2, .destroy 3] = some s ∧ s.next = 4 ∧ s.closeLog = [2, 1, 3, 0] := by
  refine ⟨_, ?_, rfl, rfl, rfl⟩
  simp only [PoliteRun, Polite, true_and, and_true]
  intro s1 h1 s2 h2 s3 h3
  simp [step, St.init, alloc, setVar] at h1
  subst h1
  simp [step, alloc, setVar, libCopy] at h2
  subst h2
  simp [step, setVar] at h3
  subst h3
  refine ⟨by simp, ?_⟩
  intro s4 h4
  simp [step, alloc, setVar, libCopy, closeVar] at h4
  subst h4
  refine ⟨by simp, ?_⟩
  intros
  trivial

/-- **C47 is violated** by files, groups and datasets: moving into a handle that is open leaks its
identifier. -/
theorem link_leak_violated :
    ∃ s, run .link St.init [.open 0, .open 1, .moveAssign 0 1, .destroy 0, .destroy 1] = some s ∧
      s.noVars ∧ s.isOpen 0 = true ∧ 0 ∉ s.closeLog := by
  refine ⟨_, rfl, fun v => ?_, rfl, by decide⟩
  simp only [closeVar, setVar, libClose, alloc, St.init]
  split
  · rfl
  · split
    · rfl
    · simp_all

/-- **C47 is violated** by property lists, data types and data spaces: an identifier closed by hand is
closed again by the destructor, which for data spaces terminates the program. -/
theorem value_closed_twice_violated (k : Kind) (hk : k ≠ .link) :
    ∃ s, run k St.init [.open 0, .close 0, .destroy 0] = some s ∧ s.closeLog = [0, 0] ∧
      (s.terminated = true ↔ k = .space) := by
  cases k
  · exact absurd rfl hk
  · exact ⟨_, rfl, rfl, by decide⟩
  · exact ⟨_, rfl, rfl, by decide⟩
  · exact ⟨_, rfl, rfl, by decide⟩

/-- **C47 is violated** by data types and data spaces: assigning one to itself closes its identifier twice
(the second time when it is destroyed). -/
theorem self_assign_violated (k : Kind) (hk : k = .type ∨ k = .space) :
    ∃ s, run k St.init [.open 0, .assign 0 0, .destroy 0] = some s ∧ s.closeLog = [0, 0] := by
  rcases hk with rfl | rfl
  · exact ⟨_, rfl, rfl⟩
  · exact ⟨_, rfl, rfl⟩

/-- Every identifier is open, or was closed at least once. -/
def Accounted (s : St) : Prop := ∀ i < s.next, s.isOpen i = true ∨ i ∈ s.closeLog

theorem acc_alloc {s : St} (h : Accounted s) : Accounted s.alloc := by
  intro i hi
  simp only [alloc, Bool.or_eq_true, beq_iff_eq] at hi ⊢
  rcases Nat.lt_succ_iff_lt_or_eq.1 hi with h1 | h1
  · rcases h i h1 with h2 | h2
    · exact Or.inl (Or.inr h2)
    · exact Or.inr h2
  · exact Or.inl (Or.inl h1)

theorem acc_close {s : St} (h : Accounted s) (j : Nat) : Accounted (s.libClose j) := by
  intro i hi
  simp only [libClose] at hi ⊢
  by_cases hij : i = j
  · right; simp [hij]
  · rcases h i hi with h1 | h1
    · left; simp [hij, h1]
    · right; simp [h1]

theorem kept_libClose {s : St} (h : Kept s) (j : Nat) : Kept (s.libClose j) := by
  intro i hi
  simp only [libClose, Bool.and_eq_true] at hi
  exact h i hi.2

/-- Replacing an identifier that is not open. -/
theorem kept_replace {s : St} (h : Kept s) (v : Nat) (y : Option (Option Nat))
    (hv : ∀ i, s.vars v = some (some i) → s.isOpen i = false) : Kept (s.setVar v y) := by
  intro i hi
  obtain ⟨u, hu⟩ := h i hi
  refine ⟨u, ?_⟩
  simp only [setVar]
  rw [if_neg]
  · exact hu
  · intro e; subst e
    have : s.isOpen i = true := hi
    rw [hv i hu] at this
    cases this

theorem kept_replace_alloc {s : St} (h : Kept s) (v : Nat)
    (hv : ∀ i, s.vars v = some (some i) → s.isOpen i = false) :
    Kept (s.alloc.setVar v (some (some s.next))) := by
  have h1 := kept_alloc (kept_replace h v none hv) v (by simp [setVar]; exact idle_none)
  rw [alloc_setVar, setVar_setVar] at h1
  exact h1

/-- `close` of such a handle. -/
theorem value_closeVar {k : Kind} (hk : k ≠ .link) {s : St} (h : Kept s) (ha : Accounted s) (v : Nat)
    (x : Option Nat) (hv : s.vars v = some x) :
    Kept (s.closeVar k v x).1 ∧ Accounted (s.closeVar k v x).1 ∧
      ∀ i, (s.closeVar k v x).1.vars v = some (some i) → (s.closeVar k v x).1.isOpen i = false := by
  cases x with
  | none => exact ⟨h, ha, fun i hi => by simp only [closeVar, hv] at hi; cases hi⟩
  | some j =>
    have key : Kept (s.libClose j) ∧ Accounted (s.libClose j) ∧
        ∀ i, (s.libClose j).vars v = some (some i) → (s.libClose j).isOpen i = false := by
      refine ⟨kept_libClose h j, acc_close ha j, fun i hi => ?_⟩
      simp only [libClose] at hi ⊢
      rw [hv] at hi
      simp only [Option.some.injEq] at hi
      simp [hi]
    cases k
    · exact absurd rfl hk
    all_goals exact key

theorem value_step {k : Kind} (hk : k ≠ .link) {s s' : St} {op : Op} (h : Kept s) (ha : Accounted s)
    (hs : step k s op = some s') : Kept s' ∧ Accounted s' := by
  have hcopy : ∀ s : St, Kept s → Accounted s → ∀ v x,
      (∀ i, s.vars v = some (some i) → s.isOpen i = false) → ∀ s₁ i, s.libCopy x = some (s₁, i) →
      Kept (s₁.setVar v (some (some i))) ∧ Accounted (s₁.setVar v (some (some i))) := by
    intro s h ha v x hv s₁ i hc
    cases x with
    | none => simp [libCopy] at hc
    | some j =>
      simp only [libCopy] at hc
      split at hc
      · simp only [Option.some.injEq, Prod.mk.injEq] at hc
        obtain ⟨rfl, rfl⟩ := hc
        exact ⟨kept_replace_alloc h v hv, acc_alloc ha⟩
      · cases hc
  have none_idle : ∀ v, s.vars v = none → ∀ i, s.vars v = some (some i) → s.isOpen i = false := by
    intro v hv i hi; rw [hv] at hi; cases hi
  cases op with
  | new v =>
    simp only [step] at hs
    split at hs
    · cases hs
    · rename_i hv
      cases k <;> simp only [Option.some.injEq, reduceCtorEq] at hs
      · exact absurd rfl hk
      · subst hs; exact ⟨kept_replace h v _ (none_idle v hv), ha⟩
      · subst hs; exact ⟨kept_replace_alloc h v (none_idle v hv), acc_alloc ha⟩
  | «open» v =>
    simp only [step] at hs
    split at hs
    · cases hs
    · rename_i hv
      simp only [Option.some.injEq] at hs; subst hs
      exact ⟨kept_replace_alloc h v (none_idle v hv), acc_alloc ha⟩
  | copy v w =>
    simp only [step] at hs
    split at hs
    · rename_i x hv hw
      cases k
      · exact absurd rfl hk
      all_goals
        simp only at hs
        split at hs
        · rename_i s₁ i hc
          simp only [Option.some.injEq] at hs; subst hs
          exact hcopy s h ha v x (none_idle v hv) s₁ i hc
        · simp only [Option.some.injEq] at hs; subst hs
          first
          | exact ⟨h, ha⟩
          | exact ⟨kept_replace h v _ (none_idle v hv), ha⟩
    · cases hs
  | move v w =>
    simp only [step] at hs
    split at hs
    · rename_i x hv hw
      cases k
      case link => exact absurd rfl hk
      case space =>
        simp only at hs
        split at hs
        · rename_i s₁ i hc
          simp only [Option.some.injEq] at hs; subst hs
          exact hcopy s h ha v x (none_idle v hv) s₁ i hc
        · simp only [Option.some.injEq] at hs; subst hs
          exact ⟨h, ha⟩
      all_goals
        simp only [Option.some.injEq] at hs; subst hs
        exact ⟨kept_move h v w x hw (by rw [hv]; exact idle_none), ha⟩
    · cases hs
  | assign v w =>
    simp only [step] at hs
    split at hs
    · rename_i y x hv hw
      cases k
      case link => exact absurd rfl hk
      case plist => cases hs
      all_goals
        obtain ⟨h1, h2, h3⟩ := value_closeVar hk h ha v y hv
        simp only at hs
        split at hs
        · simp only [Option.some.injEq] at hs; subst hs
          exact ⟨h1, h2⟩
        · split at hs
          · rename_i s₁ i hc
            simp only [Option.some.injEq] at hs; subst hs
            exact hcopy _ h1 h2 v x h3 s₁ i hc
          · simp only [Option.some.injEq] at hs; subst hs
            exact ⟨h1, h2⟩
    · cases hs
  | moveAssign v w =>
    simp only [step] at hs
    split at hs
    · cases k <;> first | exact absurd rfl hk | cases hs
    · cases hs
  | close v =>
    simp only [step] at hs
    split at hs
    · cases hs
    · rename_i x hv
      simp only [Option.some.injEq] at hs; subst hs
      obtain ⟨h1, h2, _⟩ := value_closeVar hk h ha v x hv
      exact ⟨h1, h2⟩
  | destroy v =>
    simp only [step] at hs
    split at hs
    · cases hs
    · rename_i x hv
      simp only [Option.some.injEq] at hs; subst hs
      obtain ⟨h1, h2, h3⟩ := value_closeVar hk h ha v x hv
      exact ⟨kept_replace h1 v _ h3, h2⟩

/-- **C47**, property lists, data types and data spaces: whatever a program does with them nothing is
leaked.  An open identifier belongs to an object, and when all objects are gone each identifier has been
closed at least once. -/
theorem value_no_leak {k : Kind} (hk : k ≠ .link) {ops : List Op} {s : St}
    (h : run k St.init ops = some s) :
    (∀ i, s.isOpen i = true → ∃ v, s.vars v = some (some i)) ∧
      (s.noVars → ∀ i < s.next, s.isOpen i = false ∧ i ∈ s.closeLog) := by
  have key : ∀ (ops : List Op) (s₀ : St), Kept s₀ → Accounted s₀ → run k s₀ ops = some s →
      Kept s ∧ Accounted s := by
    intro ops
    induction ops with
    | nil => intro s₀ h0 h0' hr; simp only [run, Option.some.injEq] at hr; exact hr ▸ ⟨h0, h0'⟩
    | cons op ops ih =>
      intro s₀ h0 h0' hr
      simp only [run] at hr
      obtain ⟨s₁, h1, h2⟩ := Option.bind_eq_some_iff.1 hr
      obtain ⟨a, b⟩ := value_step hk h0 h0' h1
      exact ih s₁ a b h2
  obtain ⟨hc, ha⟩ := key ops _ kept_init core_init.all h
  refine ⟨hc, fun hn i hi => ?_⟩
  have : s.isOpen i = false := by
    cases hx : s.isOpen i with
    | false => rfl
    | true =>
      obtain ⟨v, hv⟩ := hc i hx
      rw [hn v] at hv
      cases hv
  refine ⟨this, ?_⟩
  rcases ha i hi with h1 | h1
  · rw [this] at h1; cases h1
  · exact h1

/-- A careless history that leaks nothing. -/
example : ∃ s, run .type St.init [.open 0, .assign 0 0, .close 0, .open 1, .destroy 0, .destroy 1] = some s ∧
    s.next = 2 ∧ s.closeLog = [0, 0, 0, 1] := ⟨_, rfl, rfl, rfl⟩

end Verif.Handles
