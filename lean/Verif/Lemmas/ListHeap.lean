import Verif.Spec.ListHeap
import Mathlib.Tactic.ByContra
import Mathlib.Tactic.Push

/-! Helper lemmas: the reference-count invariant of the list heap. -/

namespace Verif.ListHeap
open Verif

variable {α : Type}

def Cell.next? : Cell α → Option Ptr
  | .live o _ => o.next
  | _ => none

def ind (a : Option Ptr) (p : Ptr) : Nat := if a = some p then 1 else 0

@[simp] theorem ind_none (p : Ptr) : ind none p = 0 := by simp [ind]

/-- Number of cells below `n` whose `next` is `p`. -/
def cellRefs (h : Heap α) (p : Ptr) : Nat → Nat
  | 0 => 0
  | n + 1 => cellRefs h p n + ind (h n).next? p

def IsLive (h : Heap α) (p : Ptr) : Prop := ∃ o rc, h p = .live o rc

@[simp] theorem set_same (h : Heap α) (p : Ptr) (c : Cell α) : h.set p c p = c := by
  simp [Heap.set]

theorem set_ne (h : Heap α) {p q : Ptr} (c : Cell α) (hne : q ≠ p) : h.set p c q = h q := by
  simp [Heap.set, hne]

@[simp] theorem set_set (h : Heap α) (p : Ptr) (c c' : Cell α) :
    (h.set p c).set p c' = h.set p c' := by
  funext q; simp only [Heap.set]; split <;> rfl

theorem cellRefs_set_ge (h : Heap α) (p k : Ptr) (c : Cell α) :
    ∀ n, n ≤ k → cellRefs (h.set k c) p n = cellRefs h p n := by
  intro n
  induction n with
  | zero => intro _; rfl
  | succ n ih =>
    intro hn
    simp only [cellRefs]
    rw [ih (by omega), set_ne _ _ (by omega)]

theorem cellRefs_set (h : Heap α) (p k : Ptr) (c : Cell α) :
    ∀ n, k < n → cellRefs (h.set k c) p n + ind (h k).next? p = cellRefs h p n + ind c.next? p := by
  intro n
  induction n with
  | zero => intro hk; omega
  | succ n ih =>
    intro hk
    simp only [cellRefs]
    by_cases e : k = n
    · subst e
      rw [cellRefs_set_ge _ _ _ _ _ (Nat.le_refl _), set_same]; omega
    · rw [set_ne _ _ (by omega)]
      have := ih (by omega)
      omega

theorem cellRefs_pos (h : Heap α) (p k : Ptr) (o : Obj α) (rc : Nat) (hk : h k = .live o rc)
    (hn : o.next = some p) : ∀ n, k < n → 0 < cellRefs h p n := by
  intro n
  induction n with
  | zero => intro h; omega
  | succ n ih =>
    intro hlt
    simp only [cellRefs]
    by_cases e : k = n
    · subst e; simp [hk, Cell.next?, hn, ind]
    · have := ih (by omega); omega

theorem cellRefs_pos_iff (h : Heap α) (p : Ptr) : ∀ n, 0 < cellRefs h p n →
    ∃ k, k < n ∧ ∃ o rc, h k = .live o rc ∧ o.next = some p := by
  intro n
  induction n with
  | zero => intro h; simp [cellRefs] at h
  | succ n ih =>
    intro hp
    simp only [cellRefs] at hp
    by_cases e : 0 < cellRefs h p n
    · obtain ⟨k, hk, r⟩ := ih e; exact ⟨k, by omega, r⟩
    · refine ⟨n, by omega, ?_⟩
      cases hc : h n with
      | live o rc =>
        refine ⟨o, rc, rfl, ?_⟩
        by_contra hne
        simp [hc, Cell.next?, ind, hne] at hp; omega
      | _ => simp [hc, Cell.next?] at hp; omega

/-- The invariant: `r` counts the pointers held outside the heap. -/
structure Inv (h : Heap α) (top : Ptr) (r : Ptr → Nat) : Prop where
  cell : ∀ p o rc, h p = .live o rc → p < top ∧ rc = r p + cellRefs h p top ∧ 0 < rc ∧
    ∀ q, o.next = some q → q < p ∧ IsLive h q
  roots : ∀ p, 0 < r p → IsLive h p
  fresh : ∀ p, top ≤ p → h p = .unalloc

/-- What releasing pointers may do to the heap. -/
structure Sub (h h' : Heap α) : Prop where
  live : ∀ q o rc, h' q = .live o rc → ∃ rc', h q = .live o rc'
  dead : ∀ q, ¬ IsLive h q → h' q = h q
  dying : ∀ q, h' q = .dying → h q = .dying

theorem Sub.refl (h : Heap α) : Sub h h := ⟨fun _ o rc e => ⟨rc, e⟩, fun _ _ => rfl, fun _ e => e⟩

theorem Sub.trans {h h' h'' : Heap α} (a : Sub h h') (b : Sub h' h'') : Sub h h'' := by
  refine ⟨?_, ?_, ?_⟩
  · intro q o rc e
    obtain ⟨rc', e'⟩ := b.live q o rc e
    exact a.live q o rc' e'
  · intro q hq
    have e1 := a.dead q hq
    rw [← e1]
    apply b.dead
    rintro ⟨o, rc, e⟩
    exact hq (by obtain ⟨rc', e'⟩ := a.live q o rc e; exact ⟨o, rc', e'⟩)
  · intro q e; exact a.dying q (b.dying q e)

/-- Dropping one of several references. -/
theorem Inv.drop {h : Heap α} {top : Ptr} {r r' : Ptr → Nat} (I : Inv h top r) {p : Ptr}
    {o : Obj α} {rc : Nat} (hp : h p = .live o rc) (hrc : rc ≠ 1)
    (hr : ∀ q, r q = r' q + ind (some p) q) :
    Inv (h.set p (.live o (rc - 1))) top r' ∧ Sub h (h.set p (.live o (rc - 1))) := by
  obtain ⟨hlt, hcnt, hpos, hnx⟩ := I.cell p o rc hp
  have refs : ∀ q, cellRefs (h.set p (.live o (rc - 1))) q top = cellRefs h q top := by
    intro q
    have := cellRefs_set h q p (.live o (rc - 1)) top hlt
    simp only [hp, Cell.next?] at this; omega
  have live' : ∀ q, IsLive h q → IsLive (h.set p (.live o (rc - 1))) q := by
    rintro q ⟨o', rc', e⟩
    by_cases hq : q = p
    · subst hq; exact ⟨o, rc - 1, by simp⟩
    · exact ⟨o', rc', by rw [set_ne _ _ hq, e]⟩
  refine ⟨⟨?_, ?_, ?_⟩, ⟨?_, ?_, ?_⟩⟩
  · intro q o' rc' e
    rw [refs]
    by_cases hq : q = p
    · subst hq
      simp only [set_same] at e
      injection e with e1 e2
      subst e1
      have hq := hr q; simp only [ind, if_true] at hq
      refine ⟨hlt, by omega, by omega, fun q' hq' => ⟨(hnx q' hq').1, live' _ (hnx q' hq').2⟩⟩
    · rw [set_ne _ _ hq] at e
      obtain ⟨a, b, c, d⟩ := I.cell q o' rc' e
      have hq' := hr q
      have : ind (some p) q = 0 := by simp [ind, Ne.symm hq]
      refine ⟨a, by omega, c, fun q' hq' => ⟨(d q' hq').1, live' _ (d q' hq').2⟩⟩
  · intro q hq
    exact live' q (I.roots q (by have := hr q; omega))
  · intro q hq
    rw [set_ne _ _ (by omega)]; exact I.fresh q hq
  · intro q o' rc' e
    by_cases hq : q = p
    · subst hq
      simp only [set_same] at e
      injection e with e1 e2
      subst e1; exact ⟨rc, hp⟩
    · rw [set_ne _ _ hq] at e; exact ⟨rc', e⟩
  · intro q hq
    have : q ≠ p := by rintro rfl; exact hq ⟨o, rc, hp⟩
    rw [set_ne _ _ this]
  · intro q e
    by_cases hq : q = p
    · subst hq; simp at e
    · rwa [set_ne _ _ hq] at e

/-- Taking the only reference to a node apart. -/
theorem Inv.take {h : Heap α} {top : Ptr} {r r' : Ptr → Nat} (I : Inv h top r) {p : Ptr}
    {o : Obj α} (hp : h p = .live o 1) (hrp : 0 < r p) (c : Cell α)
    (hc : c = .dying ∨ c = .freed) (hr : ∀ q, r' q + ind (some p) q = r q + ind o.next q) :
    Inv (h.set p c) top r' := by
  obtain ⟨hlt, hcnt, hpos, hnx⟩ := I.cell p o 1 hp
  have cnx : c.next? = none := by rcases hc with rfl | rfl <;> rfl
  have cnl : ∀ o rc, c ≠ .live o rc := by rcases hc with rfl | rfl <;> simp
  have c0 : cellRefs h p top = 0 := by omega
  have refs : ∀ q, cellRefs (h.set p c) q top + ind o.next q = cellRefs h q top := by
    intro q
    have := cellRefs_set h q p c top hlt
    simp only [hp, Cell.next?, cnx, ind_none] at this
    simpa [Cell.next?] using this
  have live' : ∀ q, q ≠ p → IsLive h q → IsLive (h.set p c) q := by
    rintro q hq ⟨o', rc', e⟩
    exact ⟨o', rc', by rw [set_ne _ _ hq, e]⟩
  have onp : ∀ q, o.next = some q → q ≠ p := by
    intro q hq; have := (hnx q hq).1; omega
  refine ⟨?_, ?_, ?_⟩
  · intro q o' rc' e
    by_cases hq : q = p
    · subst hq; simp only [set_same] at e; exact absurd e (cnl _ _)
    · rw [set_ne _ _ hq] at e
      obtain ⟨a, b, c', d⟩ := I.cell q o' rc' e
      have h1 := hr q
      have h2 := refs q
      have h3 : ind (some p) q = 0 := by simp [ind, Ne.symm hq]
      refine ⟨a, by omega, c', fun q' hq' => ⟨(d q' hq').1, ?_⟩⟩
      refine live' q' ?_ (d q' hq').2
      rintro rfl
      have := cellRefs_pos h q' q o' rc' e hq' top a
      omega
  · intro q hq
    by_cases e : q = p
    · subst e
      have h1 := hr q
      have h2 : ind o.next q = 0 := by
        simp only [ind]; split
        · rename_i hh; exact absurd rfl (onp q hh)
        · rfl
      have h3 : ind (some q) q = 1 := by simp [ind]
      omega
    · apply live' q e
      have h1 := hr q
      by_cases hn : o.next = some q
      · exact (hnx q hn).2
      · have : ind o.next q = 0 := by simp [ind, hn]
        exact I.roots q (by omega)
  · intro q hq
    rw [set_ne _ _ (by omega)]; exact I.fresh q hq

/-- Releasing the last reference to a node whose tail has been moved out frees it. -/
theorem release_single (d f : Nat) (p : Ptr) (h : Heap α) (v : Option α)
    (hp : h p = .live ⟨v, none⟩ 1) : release (d + 1) f p h = .ok (h.set p .freed) := by
  simp [release, hp, dtorLoop]

theorem release_shared (d f : Nat) (p : Ptr) (h : Heap α) (o : Obj α) (rc : Nat)
    (hp : h p = .live o rc) (h0 : 0 < rc) (h1 : rc ≠ 1) :
    release (d + 1) f p h = .ok (h.set p (.live o (rc - 1))) := by
  simp only [release, hp]
  rw [if_neg (by omega), if_neg h1]

/-- The destructor loop. -/
theorem dtorLoop_spec (d F : Nat) (top : Ptr) : ∀ (f : Nat) (next : Option Ptr) (h : Heap α)
    (r r' : Ptr → Nat), Inv h top r → (∀ q, r q = r' q + ind next q) →
    (∀ p, next = some p → p < f) →
    ∃ h', dtorLoop (release (d + 1) F) f next h = .ok h' ∧ Inv h' top r' ∧ Sub h h' := by
  intro f
  induction f with
  | zero =>
    intro next h r r' I hr hf
    cases next with
    | none =>
      have : r = r' := by funext q; have := hr q; simpa using this
      subst this
      exact ⟨h, by simp [dtorLoop], I, Sub.refl h⟩
    | some p => exact absurd (hf p rfl) (by omega)
  | succ f ih =>
    intro next h r r' I hr hf
    cases next with
    | none =>
      have : r = r' := by funext q; have := hr q; simpa using this
      subst this
      exact ⟨h, by simp [dtorLoop], I, Sub.refl h⟩
    | some p =>
      have hrp : 0 < r p := by have := hr p; simp [ind] at this; omega
      obtain ⟨o, rc, hp⟩ := I.roots p hrp
      obtain ⟨hlt, hcnt, hpos, hnx⟩ := I.cell p o rc hp
      by_cases h1 : rc = 1
      · subst h1
        have I2 := I.take (r' := fun q => r' q + ind o.next q) hp hrp .freed (Or.inr rfl)
          (by intro q; have := hr q; omega)
        obtain ⟨h', e, I', S⟩ := ih o.next (h.set p .freed) _ r' I2 (fun q => rfl)
          (fun q hq => by have := (hnx q hq).1; have := hf p rfl; omega)
        refine ⟨h', ?_, I', ?_⟩
        · simp only [dtorLoop, hp]
          rw [if_neg (by simp), release_single d F p _ o.value (by simp)]
          simpa using e
        · refine Sub.trans ⟨?_, ?_, ?_⟩ S
          · intro q o' rc' e
            by_cases hq : q = p
            · subst hq; simp at e
            · rw [set_ne _ _ hq] at e; exact ⟨rc', e⟩
          · intro q hq
            have : q ≠ p := by rintro rfl; exact hq ⟨_, _, hp⟩
            rw [set_ne _ _ this]
          · intro q e
            by_cases hq : q = p
            · subst hq; simp at e
            · rwa [set_ne _ _ hq] at e
      · obtain ⟨I', S⟩ := I.drop hp h1 hr
        refine ⟨_, ?_, I', S⟩
        simp only [dtorLoop, hp]
        rw [if_pos h1]
        exact release_shared d F p h o rc hp hpos h1

/-- Releasing a pointer held outside the heap. -/
theorem release_spec (d : Nat) (h : Heap α) (top p : Ptr) (r r' : Ptr → Nat) (I : Inv h top r)
    (hr : ∀ q, r q = r' q + ind (some p) q) :
    ∃ h', release (d + 2) top p h = .ok h' ∧ Inv h' top r' ∧ Sub h h' := by
  have hrp : 0 < r p := by have := hr p; simp [ind] at this; omega
  obtain ⟨o, rc, hp⟩ := I.roots p hrp
  obtain ⟨hlt, hcnt, hpos, hnx⟩ := I.cell p o rc hp
  by_cases h1 : rc = 1
  · subst h1
    have I2 := I.take (r' := fun q => r' q + ind o.next q) hp hrp .dying (Or.inl rfl)
      (by intro q; have := hr q; omega)
    obtain ⟨h', e, I', S⟩ := dtorLoop_spec d top top top o.next (h.set p .dying) _ r' I2
      (fun q => rfl) (fun q hq => by have := (hnx q hq).1; omega)
    have hpd : h' p = .dying := by
      have := S.dead p (by rintro ⟨o, rc, e⟩; simp at e)
      simpa using this
    refine ⟨h'.set p .freed, ?_, ⟨?_, ?_, ?_⟩, ⟨?_, ?_, ?_⟩⟩
    · show release (d + 1 + 1) top p h = _
      rw [release]
      simp only [hp]
      simp only [Nat.succ_ne_zero, if_false, if_true]
      rw [e]; rfl
    · intro q o' rc' e'
      by_cases hq : q = p
      · subst hq; simp at e'
      · rw [set_ne _ _ hq] at e'
        obtain ⟨a, b, c, dd⟩ := I'.cell q o' rc' e'
        have hc := cellRefs_set h' q p .freed top hlt
        simp only [hpd, Cell.next?, ind_none] at hc
        refine ⟨a, by omega, c, fun q' hq' => ⟨(dd q' hq').1, ?_⟩⟩
        obtain ⟨o2, rc2, e2⟩ := (dd q' hq').2
        have : q' ≠ p := by rintro rfl; rw [hpd] at e2; simp at e2
        exact ⟨o2, rc2, by rw [set_ne _ _ this, e2]⟩
    · intro q hq
      obtain ⟨o2, rc2, e2⟩ := I'.roots q hq
      have : q ≠ p := by rintro rfl; rw [hpd] at e2; simp at e2
      exact ⟨o2, rc2, by rw [set_ne _ _ this, e2]⟩
    · intro q hq
      rw [set_ne _ _ (by omega)]; exact I'.fresh q hq
    · intro q o' rc' e'
      by_cases hq : q = p
      · subst hq; simp at e'
      · rw [set_ne _ _ hq] at e'
        obtain ⟨rc2, e2⟩ := S.live q o' rc' e'
        rw [set_ne _ _ hq] at e2; exact ⟨rc2, e2⟩
    · intro q hq
      have : q ≠ p := by rintro rfl; exact hq ⟨_, _, hp⟩
      rw [set_ne _ _ this]
      rw [S.dead q (by rintro ⟨o2, rc2, e2⟩; rw [set_ne _ _ this] at e2; exact hq ⟨_, _, e2⟩)]
      rw [set_ne _ _ this]
    · intro q e'
      by_cases hq : q = p
      · subst hq; simp at e'
      · rw [set_ne _ _ hq] at e'
        have := S.dying q e'
        rwa [set_ne _ _ hq] at this
  · obtain ⟨I', S⟩ := I.drop hp h1 hr
    exact ⟨_, release_shared (d + 1) top p h o rc hp hpos h1, I', S⟩

/-- Objects of live cells are kept. -/
def Keeps (h h' : Heap α) : Prop := ∀ q o rc, h q = .live o rc → ∃ rc', h' q = .live o rc'

theorem retain_spec (h : Heap α) (top : Ptr) (r : Ptr → Nat) (next : Option Ptr) (I : Inv h top r)
    (hl : ∀ p, next = some p → IsLive h p) :
    ∃ h', retain next h = .ok h' ∧ Inv h' top (fun q => r q + ind next q) ∧ Keeps h h' ∧
      (∀ q, h' q = .dying → h q = .dying) := by
  cases next with
  | none =>
    exact ⟨h, rfl, by simpa using I, fun _ o rc e => ⟨rc, e⟩, fun _ e => e⟩
  | some p =>
    obtain ⟨o, rc, hp⟩ := hl p rfl
    obtain ⟨hlt, hcnt, hpos, hnx⟩ := I.cell p o rc hp
    have refs : ∀ q, cellRefs (h.set p (.live o (rc + 1))) q top = cellRefs h q top := by
      intro q
      have := cellRefs_set h q p (.live o (rc + 1)) top hlt
      simp only [hp, Cell.next?] at this; omega
    have live' : ∀ q, IsLive h q → IsLive (h.set p (.live o (rc + 1))) q := by
      rintro q ⟨o', rc', e⟩
      by_cases hq : q = p
      · subst hq; exact ⟨o, rc + 1, by simp⟩
      · exact ⟨o', rc', by rw [set_ne _ _ hq, e]⟩
    refine ⟨h.set p (.live o (rc + 1)), by simp [retain, hp], ⟨?_, ?_, ?_⟩, ?_, ?_⟩
    · intro q o' rc' e
      rw [refs]
      by_cases hq : q = p
      · subst hq
        simp only [set_same] at e
        injection e with e1 e2
        subst e1
        refine ⟨hlt, by simp [ind]; omega, by omega,
          fun q' hq' => ⟨(hnx q' hq').1, live' _ (hnx q' hq').2⟩⟩
      · rw [set_ne _ _ hq] at e
        obtain ⟨a, b, c, d⟩ := I.cell q o' rc' e
        have : ind (some p) q = 0 := by simp [ind, Ne.symm hq]
        refine ⟨a, by omega, c, fun q' hq' => ⟨(d q' hq').1, live' _ (d q' hq').2⟩⟩
    · intro q hq
      by_cases e : q = p
      · subst e; exact ⟨o, rc + 1, by simp⟩
      · have : ind (some p) q = 0 := by simp [ind, Ne.symm e]
        exact live' q (I.roots q (by omega))
    · intro q hq
      rw [set_ne _ _ (by omega)]; exact I.fresh q hq
    · intro q o' rc' e
      by_cases hq : q = p
      · subst hq
        rw [hp] at e; injection e with e1 e2; subst e1
        exact ⟨rc + 1, by simp⟩
      · exact ⟨rc', by rw [set_ne _ _ hq, e]⟩
    · intro q e
      by_cases hq : q = p
      · subst hq; simp at e
      · rwa [set_ne _ _ hq] at e

/-- Putting a fresh node (which takes over one reference to its tail). -/
theorem alloc_spec (h : Heap α) (top : Ptr) (r r' : Ptr → Nat) (o : Obj α) (I : Inv h top r')
    (hr : ∀ q, r' q = r q + ind o.next q) :
    Inv (h.set top (.live o 1)) (top + 1) (fun q => r q + ind (some top) q) ∧
      Keeps h (h.set top (.live o 1)) := by
  have ht : h top = .unalloc := I.fresh top (Nat.le_refl _)
  have c0 : cellRefs h top top = 0 := by
    by_contra hc
    obtain ⟨k, hk, o', rc', e, hn⟩ := cellRefs_pos_iff h top top (by omega)
    obtain ⟨o2, rc2, e2⟩ := ((I.cell k o' rc' e).2.2.2 top hn).2
    rw [ht] at e2; simp at e2
  have r0 : r' top = 0 := by
    by_contra hc
    obtain ⟨o2, rc2, e2⟩ := I.roots top (by omega)
    rw [ht] at e2; simp at e2
  have refs : ∀ q, cellRefs (h.set top (.live o 1)) q (top + 1) = cellRefs h q top + ind o.next q := by
    intro q
    simp only [cellRefs]
    rw [cellRefs_set_ge _ _ _ _ _ (Nat.le_refl _), set_same]; rfl
  have live' : ∀ q, IsLive h q → IsLive (h.set top (.live o 1)) q := by
    rintro q ⟨o', rc', e⟩
    have : q ≠ top := by rintro rfl; rw [ht] at e; simp at e
    exact ⟨o', rc', by rw [set_ne _ _ this, e]⟩
  refine ⟨⟨?_, ?_, ?_⟩, ?_⟩
  · intro q o' rc' e
    rw [refs]
    by_cases hq : q = top
    · subst hq
      simp only [set_same] at e
      injection e with e1 e2
      subst e1
      have := hr q
      refine ⟨by omega, by simp [ind] at *; omega, by omega, fun q' hq' => ?_⟩
      have hl : IsLive h q' := I.roots q' (by have := hr q'; simp [ind, hq'] at this; omega)
      refine ⟨?_, live' _ hl⟩
      obtain ⟨o2, rc2, e2⟩ := hl
      exact (I.cell _ _ _ e2).1
    · rw [set_ne _ _ hq] at e
      obtain ⟨a, b, c, d⟩ := I.cell q o' rc' e
      have : ind (some top) q = 0 := by simp [ind, Ne.symm hq]
      have := hr q
      refine ⟨by omega, by omega, c, fun q' hq' => ⟨(d q' hq').1, live' _ (d q' hq').2⟩⟩
  · intro q hq
    by_cases e : q = top
    · subst e; exact ⟨o, 1, by simp⟩
    · have : ind (some top) q = 0 := by simp [ind, Ne.symm e]
      have := hr q
      exact live' q (I.roots q (by omega))
  · intro q hq
    rw [set_ne _ _ (by omega)]; exact I.fresh q (by omega)
  · intro q o' rc' e
    have : q ≠ top := by rintro rfl; rw [ht] at e; simp at e
    exact ⟨rc', by rw [set_ne _ _ this, e]⟩

theorem Reads.keeps {h h' : Heap α} (k : Keeps h h') {o : Obj α} {l : List α} (r : Reads h o l) :
    Reads h' o l := by
  induction r with
  | nil o hn => exact .nil o hn
  | cons o o' a p rc l hn hv hp _ ih =>
    obtain ⟨rc', e⟩ := k p o' rc hp
    exact .cons o o' a p rc' l hn hv e ih

theorem Reads.sub {h h' : Heap α} {top : Ptr} {r : Ptr → Nat} (I : Inv h' top r) (s : Sub h h')
    {o : Obj α} {l : List α} (rd : Reads h o l) (hl : ∀ p, o.next = some p → IsLive h' p) :
    Reads h' o l := by
  induction rd with
  | nil o hn => exact .nil o hn
  | cons o o' a p rc l hn hv hp _ ih =>
    obtain ⟨o2, rc2, e2⟩ := hl p hn
    obtain ⟨rc3, e3⟩ := s.live p o2 rc2 e2
    rw [hp] at e3; injection e3 with e4 e5; subst e4
    refine .cons o o' a p rc2 l hn hv e2 (ih ?_)
    intro q hq
    exact ((I.cell p o' rc2 e2).2.2.2 q hq).2

theorem Reads.live {h : Heap α} {o : Obj α} {l : List α} (r : Reads h o l) :
    ∀ p, o.next = some p → IsLive h p := by
  cases r with
  | nil _ hn => intro p hp; rw [hn] at hp; simp at hp
  | cons _ o' a p rc l hn hv hp _ =>
    intro q hq; rw [hn] at hq; injection hq with e; subst e; exact ⟨o', rc, hp⟩

/-- References held by the variables. -/
def varRefs : List (Option (Obj α)) → Ptr → Nat
  | [], _ => 0
  | v :: vs, p => ind (v.bind Obj.next) p + varRefs vs p

theorem varRefs_set (vs : List (Option (Obj α))) (p : Ptr) (v : Option (Obj α)) :
    ∀ (t : Nat) (w : Option (Obj α)), vs[t]? = some w →
    varRefs (vs.set t v) p + ind (w.bind Obj.next) p = varRefs vs p + ind (v.bind Obj.next) p := by
  induction vs with
  | nil => intro t w h; simp at h
  | cons x xs ih =>
    intro t w h
    cases t with
    | zero =>
      simp only [List.getElem?_cons_zero, Option.some.injEq] at h
      subst h
      simp [varRefs]; omega
    | succ t =>
      simp only [List.getElem?_cons_succ] at h
      have := ih t w h
      simp only [List.set_cons_succ, varRefs]; omega

theorem varRefs_pos (vs : List (Option (Obj α))) (p : Ptr) : ∀ (x : Nat) (o : Obj α),
    vs[x]? = some (some o) → o.next = some p → 0 < varRefs vs p := by
  induction vs with
  | nil => intro x o h; simp at h
  | cons v vs ih =>
    intro x o h hn
    cases x with
    | zero =>
      simp only [List.getElem?_cons_zero, Option.some.injEq] at h
      subst h; simp [varRefs, hn, ind]; omega
    | succ x =>
      simp only [List.getElem?_cons_succ] at h
      have := ih x o h hn
      simp only [varRefs]; omega

theorem varRefs_pos_iff (vs : List (Option (Obj α))) (p : Ptr) : 0 < varRefs vs p →
    ∃ (x : Nat) (o : Obj α), vs[x]? = some (some o) ∧ o.next = some p := by
  induction vs with
  | nil => intro h; simp [varRefs] at h
  | cons v vs ih =>
    intro h
    simp only [varRefs] at h
    by_cases e : 0 < varRefs vs p
    · obtain ⟨x, o, a, b⟩ := ih e; exact ⟨x + 1, o, by simpa using a, b⟩
    · have : ind (v.bind Obj.next) p ≠ 0 := by omega
      simp only [ind, ne_eq, ite_eq_right_iff, Nat.one_ne_zero, imp_false, not_not] at this
      cases v with
      | none => simp at this
      | some o => exact ⟨0, o, by simp, by simpa using this⟩

/-- State invariant with `e` extra pointers held by temporaries. -/
structure Good (s : State α) (e : Ptr → Nat) (S : Spec α) : Prop where
  inv : Inv s.heap s.top (fun p => varRefs s.vars p + e p)
  nodying : ∀ p, s.heap p ≠ .dying
  holds : Holds s S

theorem Holds.get {s : State α} {S : Spec α} (H : Holds s S) {x : Nat} {l : List α}
    (h : S[x]? = some (some l)) : ∃ o, s.vars[x]? = some (some o) ∧ Reads s.heap o l := by
  have hx : x < S.length := by
    by_contra hc; rw [List.getElem?_eq_none (by omega)] at h; simp at h
  have hx' : x < s.vars.length := by rw [H.1]; exact hx
  cases hv : s.vars[x]? with
  | none => rw [List.getElem?_eq_none_iff] at hv; omega
  | some v =>
    cases v with
    | none => rw [H.2.1 x, h] at hv; simp at hv
    | some o =>
      obtain ⟨l', e, r⟩ := H.2.2 x o hv
      rw [h] at e; injection e with e; injection e with e; subst e
      exact ⟨o, rfl, r⟩

/-- Updating a variable together with its list. -/
theorem Holds.set {s : State α} {S : Spec α} (H : Holds s S) (h' : Heap α) (top' : Ptr) (t : Nat)
    (v : Option (Obj α)) (w : Option (List α)) (ht : t < s.vars.length)
    (hkeep : ∀ x o l, x ≠ t → s.vars[x]? = some (some o) → Reads s.heap o l → Reads h' o l)
    (hv : v = none ∧ w = none ∨ ∃ o l, v = some o ∧ w = some l ∧ Reads h' o l) :
    Holds ⟨h', top', s.vars.set t v⟩ (S.set t w) := by
  refine ⟨by simp [H.1], ?_, ?_⟩
  · intro x
    by_cases hx : x = t
    · subst hx
      have hx' : x < S.length := by rw [← H.1]; exact ht
      simp only [List.getElem?_set_self ht, List.getElem?_set_self hx', Option.some.injEq]
      rcases hv with ⟨rfl, rfl⟩ | ⟨o, l, rfl, rfl, _⟩ <;> simp
    · simp only [List.getElem?_set_ne (Ne.symm hx)]
      exact H.2.1 x
  · intro x o hxo
    by_cases hx : x = t
    · subst hx
      have hx' : x < S.length := by rw [← H.1]; exact ht
      simp only [List.getElem?_set_self ht, Option.some.injEq] at hxo
      simp only [List.getElem?_set_self hx']
      rcases hv with ⟨rfl, rfl⟩ | ⟨o', l, rfl, rfl, r⟩
      · simp at hxo
      · simp only [Option.some.injEq] at hxo; subst hxo; exact ⟨l, rfl, r⟩
    · simp only [List.getElem?_set_ne (Ne.symm hx)] at hxo ⊢
      obtain ⟨l, a, r⟩ := H.2.2 x o hxo
      exact ⟨l, a, hkeep x o l hx hxo r⟩

theorem Good.length_lt {s : State α} {v : Option (Obj α)} {t : Nat}
    (h : s.vars[t]? = some v) : t < s.vars.length := by
  by_contra hc; rw [List.getElem?_eq_none (by omega)] at h; simp at h

/-- `auto t = o;` for any readable object. -/
theorem declObj_spec {s : State α} {S : Spec α} (G : Good s (fun _ => 0) S) (t : Nat) (o : Obj α)
    (l : List α) (rd : Reads s.heap o l) (hf : s.vars[t]? = some none) :
    ∃ h', retain o.next s.heap = .ok h' ∧
      Good ⟨h', s.top, s.vars.set t (some o)⟩ (fun _ => 0) (S.set t (some l)) := by
  obtain ⟨h', e, I', K, nd⟩ := retain_spec s.heap s.top _ o.next G.inv rd.live
  refine ⟨h', e, ⟨?_, fun p hp => G.nodying p (nd p hp), ?_⟩⟩
  · have : (fun q => varRefs s.vars q + 0 + ind o.next q) =
        (fun p => varRefs (s.vars.set t (some o)) p + 0) := by
      funext q
      have := varRefs_set s.vars q (some o) t none hf
      simp at this; omega
    rw [this] at I'; exact I'
  · exact G.holds.set h' s.top t (some o) (some l) (Good.length_lt hf)
      (fun x o' l' _ _ r => r.keeps K) (Or.inr ⟨o, l, rfl, rfl, rd.keeps K⟩)

/-- `t = o;` for any readable object. -/
theorem assignObj_spec {s : State α} {S : Spec α} {e : Ptr → Nat} (G : Good s e S) (t : Nat)
    (o : Obj α) (l : List α) (rd : Reads s.heap o l) (old : Obj α)
    (hold : s.vars[t]? = some (some old)) :
    ∃ s', assignObj s t o = .ok s' ∧ Good s' e (S.set t (some l)) ∧ s'.top = s.top := by
  obtain ⟨h1, e1, I1, K, nd⟩ := retain_spec s.heap s.top _ o.next G.inv rd.live
  have hget : s.get t = .ok old := by simp [State.get, hold]
  have cnt : ∀ q, varRefs s.vars q + e q + ind o.next q =
      varRefs (s.vars.set t (some o)) q + e q + ind old.next q := by
    intro q
    have := varRefs_set s.vars q (some o) t (some old) hold
    simp at this; omega
  cases hn : old.next with
  | none =>
    refine ⟨⟨h1, s.top, s.vars.set t (some o)⟩, by simp [assignObj, hget, e1, hn], ⟨?_, ?_, ?_⟩, rfl⟩
    · have : (fun q => varRefs s.vars q + e q + ind o.next q) =
          (fun p => varRefs (s.vars.set t (some o)) p + e p) := by
        funext q; have := cnt q; simp [hn] at this; omega
      rw [this] at I1; exact I1
    · exact fun p hp => G.nodying p (nd p hp)
    · exact G.holds.set h1 s.top t (some o) (some l) (Good.length_lt hold)
        (fun x o' l' _ _ r => r.keeps K) (Or.inr ⟨o, l, rfl, rfl, rd.keeps K⟩)
  | some p =>
    obtain ⟨h2, e2, I2, Sb⟩ := release_spec 0 h1 s.top p _
      (fun q => varRefs (s.vars.set t (some o)) q + e q) I1
      (by intro q; have := cnt q; rw [hn] at this; exact this)
    refine ⟨⟨h2, s.top, s.vars.set t (some o)⟩,
      by simp [assignObj, hget, e1, hn, stackDepth, e2], ⟨I2, ?_, ?_⟩, rfl⟩
    · exact fun q hq => G.nodying q (nd q (Sb.dying q hq))
    · refine G.holds.set h2 s.top t (some o) (some l) (Good.length_lt hold) ?_
        (Or.inr ⟨o, l, rfl, rfl, ?_⟩)
      · intro x o' l' hx hxo r
        refine (r.keeps K).sub I2 Sb ?_
        intro q hq
        apply I2.roots
        have := varRefs_pos (s.vars.set t (some o)) q x o'
          (by rw [List.getElem?_set_ne (Ne.symm hx)]; exact hxo) hq
        omega
      · refine (rd.keeps K).sub I2 Sb ?_
        intro q hq
        apply I2.roots
        have := varRefs_pos (s.vars.set t (some o)) q t o
          (List.getElem?_set_self (Good.length_lt hold)) hq
        omega

/-- Destroying an object whose pointer is among the extra ones. -/
theorem destroyObj_spec {s : State α} {S : Spec α} {e e' : Ptr → Nat} (G : Good s e S) (o : Obj α)
    (he : ∀ q, e q = e' q + ind o.next q) :
    ∃ h', dtorLoop (release (stackDepth - 1) s.top) s.top o.next s.heap = .ok h' ∧
      Good ⟨h', s.top, s.vars⟩ e' S := by
  obtain ⟨h', e1, I', Sb⟩ := dtorLoop_spec 0 s.top s.top s.top o.next s.heap _
    (fun q => varRefs s.vars q + e' q) G.inv (by intro q; have := he q; omega)
    (by
      intro p hp
      obtain ⟨o', rc, e2⟩ := G.inv.roots p (by have := he p; simp [ind, hp] at this; omega)
      exact (G.inv.cell p o' rc e2).1)
  refine ⟨h', by simpa [stackDepth] using e1, ⟨I', fun p hp => G.nodying p (Sb.dying p hp), ?_⟩⟩
  refine ⟨G.holds.1, G.holds.2.1, ?_⟩
  intro x o' hxo
  obtain ⟨l, a, r⟩ := G.holds.2.2 x o' hxo
  refine ⟨l, a, r.sub I' Sb ?_⟩
  intro q hq
  apply I'.roots
  have := varRefs_pos s.vars q x o' hxo hq
  omega

/-- `prepend`. -/
theorem prependObj_spec {s : State α} {S : Spec α} (G : Good s (fun _ => 0) S) (o : Obj α)
    (l : List α) (a : α) (rd : Reads s.heap o l) :
    ∃ h', prependObj s o a = .ok (⟨h', s.top + 1, s.vars⟩, ⟨some a, some s.top⟩) ∧
      Good ⟨h', s.top + 1, s.vars⟩ (ind (some s.top)) S ∧
      Reads h' ⟨some a, some s.top⟩ (a :: l) := by
  obtain ⟨h1, e1, I1, K, nd⟩ := retain_spec s.heap s.top _ o.next G.inv rd.live
  obtain ⟨I2, K2⟩ := alloc_spec h1 s.top (fun q => varRefs s.vars q) _ o I1 (by intro q; simp)
  refine ⟨h1.set s.top (.live o 1), by simp [prependObj, e1], ⟨I2, ?_, ?_⟩, ?_⟩
  · intro p hp
    by_cases e : p = s.top
    · subst e; simp at hp
    · simp only [set_ne _ _ e] at hp; exact G.nodying p (nd p hp)
  · refine ⟨G.holds.1, G.holds.2.1, ?_⟩
    intro x o' hxo
    obtain ⟨l, a, r⟩ := G.holds.2.2 x o' hxo
    exact ⟨l, a, (r.keeps K).keeps K2⟩
  · exact .cons _ o a s.top 1 l rfl rfl (by simp) ((rd.keeps K).keeps K2)

/-- Outcome agreement. -/
def Agrees (r : Outcome (State α)) (R : Outcome (Spec α)) : Prop :=
  match R with
  | .ok S => ∃ s, r = .ok s ∧ Good s (fun _ => 0) S
  | .throws x => r = .throws x
  | .diverges => r = .diverges
  | .ub => True

theorem get_cases {s : State α} {S : Spec α} (H : Holds s S) (x : Nat) :
    (S.get x = .ub) ∨
    ∃ l o, S.get x = .ok l ∧ s.get x = .ok o ∧ S[x]? = some (some l) ∧
      s.vars[x]? = some (some o) ∧ Reads s.heap o l := by
  cases hx : S[x]? with
  | none => left; simp [Spec.get, hx]
  | some v =>
    cases v with
    | none => left; simp [Spec.get, hx]
    | some l =>
      obtain ⟨o, ho, rd⟩ := H.get hx
      right; exact ⟨l, o, by simp [Spec.get, hx], by simp [State.get, ho], rfl, ho, rd⟩

theorem fresh_cases {s : State α} {S : Spec α} (H : Holds s S) (t : Nat) :
    (S.fresh t = .ub) ∨
    (S.fresh t = .ok () ∧ s.fresh t = .ok () ∧ s.vars[t]? = some none) := by
  cases hx : S[t]? with
  | none => left; simp [Spec.fresh, hx]
  | some v =>
    cases v with
    | none =>
      right
      have := (H.2.1 t).mpr hx
      simp [Spec.fresh, hx, State.fresh, this]
    | some l => left; simp [Spec.fresh, hx]

theorem head_agree {h : Heap α} {o : Obj α} {l : List α} (rd : Reads h o l) :
    headObj o = (match l with | [] => .throws .outOfRange | a :: _ => .ok a) := by
  cases rd with
  | nil _ hn => simp [headObj, hn]
  | cons _ o' a p rc l hn hv hp _ => simp [headObj, hn, hv]

theorem src_cases {s : State α} {S : Spec α} (H : Holds s S) (v : Src α) :
    S.src v = .ub ∨ (S.src v = s.src v ∧ ((∃ a, S.src v = .ok a) ∨ ∃ x, S.src v = .throws x)) := by
  cases v with
  | lit a => right; exact ⟨rfl, Or.inl ⟨a, rfl⟩⟩
  | headOf x =>
    rcases get_cases H x with h | ⟨l, o, h1, h2, _, _, rd⟩
    · left; simp [Spec.src, h]
    · right
      have := head_agree rd
      cases l with
      | nil => simp [Spec.src, h1, State.src, h2, this]
      | cons a l => simp [Spec.src, h1, State.src, h2, this]

theorem tail_cases {h : Heap α} {o : Obj α} {l : List α} (rd : Reads h o l) :
    (specTail l = .throws .outOfRange ∧ tailObj h o = .throws .outOfRange) ∨
    ∃ n l', specTail l = .ok l' ∧ tailObj h o = .ok n ∧ Reads h n l' := by
  cases rd with
  | nil _ hn => left; simp [specTail, tailObj, hn]
  | cons _ o' a p rc l hn hv hp r =>
    right; exact ⟨o', l, rfl, by simp [tailObj, hn, hp], r⟩

theorem step_agrees {s : State α} {S : Spec α} (G : Good s (fun _ => 0) S) (op : Op α) :
    Agrees (step s op) (specStep S op) := by
  cases op with
  | declEmpty t =>
    rcases fresh_cases G.holds t with h | ⟨h1, h2, h3⟩
    · simp [specStep, h, Agrees]
    · simp only [specStep, step, h1, h2, Outcome.bind_ok, Agrees]
      refine ⟨_, rfl, ?_⟩
      obtain ⟨h', e, G'⟩ := declObj_spec G t ⟨none, none⟩ [] (.nil _ rfl) h3
      simp only [retain, Outcome.ok.injEq] at e
      subst e; exact G'
  | declCopy t x =>
    rcases fresh_cases G.holds t with h | ⟨h1, h2, h3⟩
    · simp [specStep, h, Agrees]
    · rcases get_cases G.holds x with h | ⟨l, o, g1, g2, _, _, rd⟩
      · simp [specStep, h1, h, Agrees]
      · obtain ⟨h', e, G'⟩ := declObj_spec G t o l rd h3
        simp only [specStep, step, h1, h2, g1, g2, e, Outcome.bind_ok, Agrees]
        exact ⟨_, rfl, G'⟩
  | declTail t x =>
    rcases fresh_cases G.holds t with h | ⟨h1, h2, h3⟩
    · simp [specStep, h, Agrees]
    · rcases get_cases G.holds x with h | ⟨l, o, g1, g2, _, _, rd⟩
      · simp [specStep, h1, h, Agrees]
      · rcases tail_cases rd with ⟨t1, t2⟩ | ⟨n, l', t1, t2, rd'⟩
        · simp [specStep, step, h1, h2, g1, g2, t1, t2, Agrees]
        · obtain ⟨h', e, G'⟩ := declObj_spec G t n l' rd' h3
          simp only [specStep, step, h1, h2, g1, g2, t1, t2, e, Outcome.bind_ok, Agrees]
          exact ⟨_, rfl, G'⟩
  | declPrepend t x v =>
    rcases fresh_cases G.holds t with h | ⟨h1, h2, h3⟩
    · simp [specStep, h, Agrees]
    · rcases get_cases G.holds x with h | ⟨l, o, g1, g2, _, _, rd⟩
      · simp [specStep, h1, h, Agrees]
      · rcases src_cases G.holds v with h | ⟨v1, ⟨a, v2⟩ | ⟨ex, v2⟩⟩
        · simp [specStep, h1, g1, h, Agrees]
        · obtain ⟨h', e, G', rd'⟩ := prependObj_spec G o l a rd
          simp only [specStep, step, h1, h2, g1, g2, ← v1, v2, e, Outcome.bind_ok, Agrees]
          refine ⟨_, rfl, ⟨?_, G'.nodying, ?_⟩⟩
          · have : (fun p => varRefs s.vars p + ind (some s.top) p) =
                (fun p => varRefs (s.vars.set t (some ⟨some a, some s.top⟩)) p + 0) := by
              funext q
              have := varRefs_set s.vars q (some ⟨some a, some s.top⟩) t none h3
              simp at this; omega
            have I := G'.inv
            simp only at I
            rw [this] at I; exact I
          · exact G'.holds.set h' (s.top + 1) t (some ⟨some a, some s.top⟩) (some (a :: l))
              (Good.length_lt h3) (fun _ _ _ _ _ r => r) (Or.inr ⟨_, _, rfl, rfl, rd'⟩)
        · simp [specStep, step, h1, h2, g1, g2, ← v1, v2, Agrees]
  | assign t x =>
    rcases get_cases G.holds t with h | ⟨lt, ot, t1, t2, _, t4, rdt⟩
    · simp [specStep, h, Agrees]
    · rcases get_cases G.holds x with h | ⟨l, o, g1, g2, _, _, rd⟩
      · simp [specStep, t1, h, Agrees]
      · obtain ⟨s', e, G', _⟩ := assignObj_spec G t o l rd ot t4
        simp only [specStep, step, t1, t2, g1, g2, Outcome.bind_ok, Agrees]
        exact ⟨s', e, G'⟩
  | assignTail t x =>
    rcases get_cases G.holds t with h | ⟨lt, ot, t1, t2, _, t4, rdt⟩
    · simp [specStep, h, Agrees]
    · rcases get_cases G.holds x with h | ⟨l, o, g1, g2, _, _, rd⟩
      · simp [specStep, t1, h, Agrees]
      · rcases tail_cases rd with ⟨u1, u2⟩ | ⟨n, l', u1, u2, rd'⟩
        · simp [specStep, step, t1, t2, g1, g2, u1, u2, Agrees]
        · obtain ⟨s', e, G', _⟩ := assignObj_spec G t n l' rd' ot t4
          simp only [specStep, step, t1, t2, g1, g2, u1, u2, Outcome.bind_ok, Agrees]
          exact ⟨s', e, G'⟩
  | assignPrepend t x v =>
    rcases get_cases G.holds t with h | ⟨lt, ot, t1, t2, _, t4, rdt⟩
    · simp [specStep, h, Agrees]
    · rcases get_cases G.holds x with h | ⟨l, o, g1, g2, _, _, rd⟩
      · simp [specStep, t1, h, Agrees]
      · rcases src_cases G.holds v with h | ⟨v1, ⟨a, v2⟩ | ⟨ex, v2⟩⟩
        · simp [specStep, t1, g1, h, Agrees]
        · obtain ⟨h', e, G', rd'⟩ := prependObj_spec G o l a rd
          obtain ⟨s2, e2, G2, _⟩ := assignObj_spec G' t _ _ rd' ot t4
          obtain ⟨h3, e3, G3⟩ := destroyObj_spec (e' := fun _ => 0) G2 ⟨some a, some s.top⟩
            (by intro q; simp)
          simp only [specStep, step, t1, t2, g1, g2, ← v1, v2, e, e2, destroyObj, e3,
            Outcome.bind_ok, Agrees]
          exact ⟨_, rfl, G3⟩
        · simp [specStep, step, t1, t2, g1, g2, ← v1, v2, Agrees]
  | destroy t =>
    rcases get_cases G.holds t with h | ⟨lt, ot, t1, t2, _, t4, rdt⟩
    · simp [specStep, h, Agrees]
    · have G1 : Good ⟨s.heap, s.top, s.vars.set t none⟩ (ind ot.next) (S.set t none) := by
        refine ⟨?_, G.nodying, ?_⟩
        · have : (fun p => varRefs s.vars p + 0) =
              (fun p => varRefs (s.vars.set t none) p + ind ot.next p) := by
            funext q
            have := varRefs_set s.vars q none t (some ot) t4
            simp at this; omega
          have I := G.inv
          rw [this] at I; exact I
        · exact G.holds.set s.heap s.top t none none (Good.length_lt t4)
            (fun _ _ _ _ _ r => r) (Or.inl ⟨rfl, rfl⟩)
      obtain ⟨h3, e3, G3⟩ := destroyObj_spec (e' := fun _ => 0) G1 ot (by intro q; simp)
      simp only at e3
      simp only [specStep, step, t1, t2, destroyObj, e3, Outcome.bind_ok, Agrees]
      exact ⟨_, rfl, G3⟩

theorem exec_agrees (fuel : Nat) (c : Cmd α) : ∀ {s : State α} {S : Spec α},
    Good s (fun _ => 0) S → Agrees (exec fuel c s) (specExec fuel c S) := by
  induction c with
  | op o => intro s S G; exact step_agrees G o
  | tryOp o =>
    intro s S G
    have := step_agrees G o
    simp only [exec, specExec]
    cases h : specStep S o with
    | ok S' =>
      rw [h] at this
      obtain ⟨s', e, G'⟩ := this
      simp only [e]; exact ⟨s', rfl, G'⟩
    | throws x =>
      rw [h] at this
      simp only [Agrees] at this
      simp only [this]; exact ⟨s, rfl, G⟩
    | ub => simp [Agrees]
    | diverges =>
      rw [h] at this
      simp only [Agrees] at this
      simp only [this]; rfl
  | seq a b iha ihb =>
    intro s S G
    simp only [exec, specExec]
    have := iha G
    cases h : specExec fuel a S with
    | ok S' =>
      rw [h] at this
      obtain ⟨s', e, G'⟩ := this
      simp only [e, Outcome.bind_ok]; exact ihb G'
    | throws x => rw [h] at this; simp only [Agrees] at this; simp [this, Agrees]
    | ub => simp [Agrees]
    | diverges => rw [h] at this; simp only [Agrees] at this; simp [this, Agrees]
  | whileNonEmpty x body ih =>
    intro s S G
    simp only [exec, specExec]
    have key : ∀ n (s : State α) (S : Spec α), Good s (fun _ => 0) S →
        Agrees (exec.loop n x (exec fuel body) s) (specExec.loop n x (specExec fuel body) S) := by
      intro n
      induction n with
      | zero => intro s S G; simp [exec.loop, specExec.loop, Agrees]
      | succ n ihn =>
        intro s S G
        simp only [exec.loop, specExec.loop]
        rcases get_cases G.holds x with h | ⟨l, o, g1, g2, _, _, rd⟩
        · simp [h, Agrees]
        · simp only [g1, g2, Outcome.bind_ok]
          cases rd with
          | nil _ hn => simp only [hn]; exact ⟨s, rfl, G⟩
          | cons _ o' a p rc l hn hv hp r =>
            simp only [hn]
            have := ih G
            cases h : specExec fuel body S with
            | ok S' =>
              rw [h] at this
              obtain ⟨s', e, G'⟩ := this
              simp only [e, Outcome.bind_ok]; exact ihn s' S' G'
            | throws x => rw [h] at this; simp only [Agrees] at this; simp [this, Agrees]
            | ub => simp [Agrees]
            | diverges => rw [h] at this; simp only [Agrees] at this; simp [this, Agrees]
    exact key fuel s S G

theorem initial_good (n : Nat) : Good (initial n : State α) (fun _ => 0) (List.replicate n none) := by
  have v0 : ∀ n p, varRefs (List.replicate n none : List (Option (Obj α))) p = 0 := by
    intro n p
    induction n with
    | zero => rfl
    | succ n ih => simp [List.replicate_succ, varRefs, ih]
  refine ⟨⟨?_, ?_, ?_⟩, ?_, ?_⟩
  · intro p o rc e; simp [initial] at e
  · intro p hp; simp [initial, v0] at hp
  · intro p _; rfl
  · intro p; simp [initial]
  · refine ⟨by simp [initial], ?_, ?_⟩
    · intro x; simp only [initial]; constructor
      · intro h; simpa [List.getElem?_replicate] using h
      · intro h; simpa [List.getElem?_replicate] using h
    · intro x o h
      simp [initial, List.getElem?_replicate] at h

theorem Good.noLeak {s : State α} {S : Spec α} (G : Good s (fun _ => 0) S) : NoLeak s := by
  intro p
  refine ⟨⟨?_, ?_⟩, G.nodying p⟩
  · -- live cells are reachable: strong induction downwards from the allocation frontier
    have key : ∀ k p, s.top ≤ p + k → IsLive s.heap p → Reachable s p := by
      intro k
      induction k with
      | zero =>
        rintro p hp ⟨o, rc, e⟩
        have := (G.inv.cell p o rc e).1; omega
      | succ k ih =>
        rintro p hp ⟨o, rc, e⟩
        obtain ⟨hlt, hcnt, hpos, hnx⟩ := G.inv.cell p o rc e
        by_cases hv : 0 < varRefs s.vars p
        · obtain ⟨x, o', a, b⟩ := varRefs_pos_iff s.vars p hv
          exact .root x o' p a b
        · obtain ⟨q, hq, o', rc', e', hn⟩ := cellRefs_pos_iff s.heap p s.top (by omega)
          have := ((G.inv.cell q o' rc' e').2.2.2 p hn).1
          exact .next q o' rc' p (ih q (by omega) ⟨o', rc', e'⟩) e' hn
    intro h
    exact key s.top p (by omega) h
  · intro h
    induction h with
    | root x o p hx hn =>
      exact G.inv.roots p (by have := varRefs_pos s.vars p x o hx hn; omega)
    | next q o rc p _ hq hn _ => exact ((G.inv.cell q o rc hq).2.2.2 p hn).2

end Verif.ListHeap
