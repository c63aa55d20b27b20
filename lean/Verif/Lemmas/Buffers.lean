import Verif.Spec.Buffers
import Mathlib.Data.Set.Card
import Mathlib.Tactic.Push
import Mathlib.Tactic.Tauto

/-! # Lemmas about buffers: which buffer owns which block -/

namespace Verif.Buffers

variable {α : Type}

/-- The buffer has these values. -/
def Holds (h : Heap α) (b : Buffer) (l : List α) : Prop :=
  b.count = l.length ∧ (b.memory = none → l = []) ∧ ∀ a, b.memory = some a → h.blocks a = some l

/-- The buffers have the values `L`, no two of them share a block, and there is no block without buffer. -/
structure Mem (h : Heap α) (B : Place → Option Buffer) (L : Place → Option (List α)) : Prop where
  gone : ∀ p, L p = none → B p = none
  here : ∀ p l, L p = some l → ∃ b, B p = some b ∧ Holds h b l
  inj : ∀ p q b c a, B p = some b → B q = some c → b.memory = some a → c.memory = some a → p = q
  owned : ∀ a l, h.blocks a = some l → ∃ p b, B p = some b ∧ b.memory = some a
  fresh : ∀ a, h.next ≤ a → h.blocks a = none

theorem Mem.holds {h : Heap α} {B L p b} (H : Mem h B L) (hb : B p = some b) : ∃ l, L p = some l ∧ Holds h b l := by
  cases hl : L p with
  | none => rw [H.gone p hl] at hb; cases hb
  | some l =>
    obtain ⟨c, hc, h'⟩ := H.here p l hl
    rw [hb] at hc; cases hc
    exact ⟨l, rfl, h'⟩

theorem Mem.used {h : Heap α} {B L p b a} (H : Mem h B L) (hb : B p = some b) (ha : b.memory = some a) : a < h.next := by
  obtain ⟨l, _, h'⟩ := H.holds hb
  by_contra hn
  have := h'.2.2 a ha
  rw [H.fresh a (by omega)] at this
  cases this

theorem Mem.construct {h : Heap α} {B L} (H : Mem h B L) {p : Place} (hp : L p = none) (l : List α) :
    Mem (h.new l) (Function.update B p (some ⟨l.length, some h.next⟩)) (Function.update L p (some l)) where
  gone q hq := by
    by_cases e : q = p
    · subst e; simp at hq
    · rw [Function.update_of_ne e] at hq ⊢; exact H.gone q hq
  here q m hm := by
    by_cases e : q = p
    · subst e; simp at hm; subst hm
      exact ⟨_, Function.update_self .., rfl, by simp, by rintro a ⟨⟩; simp [Heap.new]⟩
    · rw [Function.update_of_ne e] at hm ⊢
      obtain ⟨b, hb, h1, h2, h3⟩ := H.here q m hm
      refine ⟨b, hb, h1, h2, fun a ha => ?_⟩
      have := H.used hb ha
      simp only [Heap.new]
      rw [Function.update_of_ne (by omega)]
      exact h3 a ha
  inj q r b c a hb hc ha ha' := by
    by_cases e : q = p <;> by_cases e' : r = p
    · rw [e, e']
    · subst e
      rw [Function.update_self] at hb; rw [Function.update_of_ne e'] at hc
      cases hb; cases ha
      exact absurd (H.used hc ha') (lt_irrefl _)
    · subst e'
      rw [Function.update_self] at hc; rw [Function.update_of_ne e] at hb
      cases hc; cases ha'
      exact absurd (H.used hb ha) (lt_irrefl _)
    · rw [Function.update_of_ne e] at hb; rw [Function.update_of_ne e'] at hc
      exact H.inj q r b c a hb hc ha ha'
  owned a m ha := by
    by_cases e : a = h.next
    · exact ⟨p, _, Function.update_self .., by rw [e]⟩
    · simp only [Heap.new] at ha
      rw [Function.update_of_ne e] at ha
      obtain ⟨q, b, hb, hm⟩ := H.owned a m ha
      refine ⟨q, b, ?_, hm⟩
      rw [Function.update_of_ne]
      · exact hb
      · rintro rfl; rw [H.gone _ hp] at hb; cases hb
  fresh a ha := by
    simp only [Heap.new] at ha ⊢
    rw [Function.update_of_ne (by omega)]
    exact H.fresh a (by omega)

theorem Mem.delete {h : Heap α} {B L p b} (H : Mem h B L) (hb : B p = some b) :
    ∃ h', h.delete b.memory = .ok h' ∧ Mem h' (Function.update B p none) (Function.update L p none) := by
  obtain ⟨l, hl, h1, h2, h3⟩ := H.holds hb
  have hN : ∀ q, Function.update L p none q = none → Function.update B p none q = none := fun q hq => by
    by_cases e : q = p
    · subst e; simp
    · rw [Function.update_of_ne e] at hq ⊢; exact H.gone q hq
  have hI : ∀ q r b c a, Function.update B p none q = some b → Function.update B p none r = some c → b.memory = some a → c.memory = some a → q = r := by
    intro q r b c a hb hc ha ha'
    by_cases e : q = p
    · subst e; simp at hb
    by_cases e' : r = p
    · subst e'; simp at hc
    rw [Function.update_of_ne e] at hb; rw [Function.update_of_ne e'] at hc
    exact H.inj q r b c a hb hc ha ha'
  cases hm : b.memory with
  | none =>
    refine ⟨h, rfl, hN, fun q m hq => ?_, hI, fun a m ha => ?_, H.fresh⟩
    · by_cases e : q = p
      · subst e; simp at hq
      · rw [Function.update_of_ne e] at hq ⊢; exact H.here q m hq
    · obtain ⟨q, c, hc, hma⟩ := H.owned a m ha
      refine ⟨q, c, ?_, hma⟩
      rw [Function.update_of_ne]
      · exact hc
      · rintro rfl; rw [hb] at hc; cases hc; rw [hm] at hma; cases hma
  | some a =>
    have ha := h3 a hm
    refine ⟨⟨Function.update h.blocks a none, h.next⟩, by simp only [Heap.delete, ha], hN, fun q m hq => ?_, hI, fun a' m ha' => ?_, fun a' ha' => ?_⟩
    · by_cases e : q = p
      · subst e; simp at hq
      · rw [Function.update_of_ne e] at hq ⊢
        obtain ⟨c, hc, k1, k2, k3⟩ := H.here q m hq
        refine ⟨c, hc, k1, k2, fun a' ha' => ?_⟩
        have : a' ≠ a := by
          rintro rfl; exact e (H.inj q p c b a' hc hb ha' hm)
        show Function.update h.blocks a none a' = _
        rw [Function.update_of_ne this]; exact k3 a' ha'
    · have : a' ≠ a := by
        rintro rfl; simp at ha'
      simp only at ha'
      rw [Function.update_of_ne this] at ha'
      obtain ⟨q, c, hc, hma⟩ := H.owned a' m ha'
      refine ⟨q, c, ?_, hma⟩
      rw [Function.update_of_ne]
      · exact hc
      · rintro rfl; rw [hb] at hc; cases hc; rw [hm] at hma; cases hma; exact this rfl
    · show Function.update h.blocks a none a' = none
      by_cases e : a' = a
      · rw [e]; simp
      · rw [Function.update_of_ne e]; exact H.fresh a' ha'

/-- A pointer goes from one buffer to another. -/
theorem Mem.move {h : Heap α} {B L p q b l} (H : Mem h B L) (hp : L p = none) (hq : L q = some l) (hb : B q = some b) :
    Mem h (Function.update (Function.update B p (some b)) q (some .null)) (Function.update (Function.update L p (some l)) q (some [])) := by
  have hpq : p ≠ q := by rintro rfl; rw [hp] at hq; cases hq
  obtain ⟨l', hl', hh⟩ := H.holds hb
  rw [hq] at hl'; cases hl'
  have at_ : ∀ r, r ≠ p → r ≠ q → ∀ {β : Type} (f : Place → β) (u v : β), Function.update (Function.update f p u) q v r = f r := by
    intro r h1 h2 β f u v
    rw [Function.update_of_ne h2, Function.update_of_ne h1]
  have atp : ∀ {β : Type} (f : Place → β) (u v : β), Function.update (Function.update f p u) q v p = u := by
    intro β f u v
    rw [Function.update_of_ne hpq, Function.update_self]
  have hmem : ∀ r c a, Function.update (Function.update B p (some b)) q (some .null) r = some c → c.memory = some a →
      ∃ r', B r' = some c ∧ (r = p → r' = q) ∧ (r ≠ p → r' = r ∧ r ≠ q) := by
    intro r c a hc ha
    by_cases e : r = q
    · subst e; rw [Function.update_self] at hc; cases hc; cases ha
    by_cases e' : r = p
    · subst e'; rw [atp] at hc; cases hc
      exact ⟨q, hb, fun _ => rfl, fun h => absurd rfl h⟩
    · rw [at_ r e' e] at hc
      exact ⟨r, hc, fun h => absurd h e', fun _ => ⟨rfl, e⟩⟩
  refine ⟨fun r hr => ?_, fun r m hr => ?_, fun r r' c c' a hc hc' ha ha' => ?_, fun a m ha => ?_, H.fresh⟩
  · by_cases e : r = q
    · subst e; simp at hr
    by_cases e' : r = p
    · subst e'; rw [atp] at hr; cases hr
    · rw [at_ r e' e] at hr ⊢; exact H.gone r hr
  · by_cases e : r = q
    · subst e; rw [Function.update_self] at hr ⊢; cases hr
      exact ⟨_, rfl, rfl, fun _ => rfl, by rintro a ⟨⟩⟩
    by_cases e' : r = p
    · subst e'; rw [atp] at hr ⊢; cases hr; exact ⟨b, rfl, hh⟩
    · rw [at_ r e' e] at hr ⊢; exact H.here r m hr
  · obtain ⟨s, hs, s1, s2⟩ := hmem r c a hc ha
    obtain ⟨s', hs', s1', s2'⟩ := hmem r' c' a hc' ha'
    have := H.inj s s' c c' a hs hs' ha ha'
    by_cases e : r = p <;> by_cases e' : r' = p
    · rw [e, e']
    · have := s1 e; have := s2' e'; exfalso; apply this.2; rw [← this.1]; simp_all
    · have := s1' e'; have := s2 e; exfalso; apply this.2; rw [← this.1]; simp_all
    · rw [← (s2 e).1, ← (s2' e').1]; exact this
  · obtain ⟨r, c, hc, hm⟩ := H.owned a m ha
    by_cases e : r = q
    · subst e; rw [hb] at hc; cases hc; exact ⟨p, b, atp .., hm⟩
    · have : r ≠ p := by rintro rfl; rw [H.gone _ hp] at hc; cases hc
      exact ⟨r, c, by rw [at_ r this e]; exact hc, hm⟩

theorem Mem.write {h : Heap α} {B L p b l} (H : Mem h B L) (hb : B p = some b) (hl : L p = some l) {i : Nat} (hi : i < l.length) (v : α) :
    ∃ h', h.write b i v = .ok h' ∧ Mem h' B (Function.update L p (some (l.set i v))) := by
  obtain ⟨l', hl', h1, h2, h3⟩ := H.holds hb
  rw [hl] at hl'; cases hl'
  cases hm : b.memory with
  | none => rw [h2 hm] at hi; simp at hi
  | some a =>
    have ha := h3 a hm
    refine ⟨{ h with blocks := Function.update h.blocks a (some (l.set i v)) }, by simp only [Heap.write, hm, ha, if_pos hi], fun q hq => ?_, fun q m hq => ?_, H.inj, fun a' m ha' => ?_,
      fun a' ha' => ?_⟩
    · by_cases e : q = p
      · subst e; simp at hq
      · rw [Function.update_of_ne e] at hq; exact H.gone q hq
    · by_cases e : q = p
      · subst e; rw [Function.update_self] at hq; cases hq
        refine ⟨b, hb, by rw [h1, List.length_set], (fun hn => absurd (hm.symm.trans hn) (by simp)), fun a' ha' => ?_⟩
        rw [hm] at ha'; cases ha'; simp
      · rw [Function.update_of_ne e] at hq
        obtain ⟨c, hc, k1, k2, k3⟩ := H.here q m hq
        refine ⟨c, hc, k1, k2, fun a' ha' => ?_⟩
        have : a' ≠ a := by
          rintro rfl; exact e (H.inj q p c b a' hc hb ha' hm)
        show Function.update h.blocks a _ a' = _
        rw [Function.update_of_ne this]; exact k3 a' ha'
    · by_cases e : a' = a
      · exact ⟨p, b, hb, by rw [e]; exact hm⟩
      · simp only at ha'
        rw [Function.update_of_ne e] at ha'
        exact H.owned a' m ha'
    · have : a' ≠ a := by
        rintro rfl; rw [H.fresh a' ha'] at ha; cases ha
      show Function.update h.blocks a _ a' = _
      rw [Function.update_of_ne this]; exact H.fresh a' ha'

theorem Holds.range {h : Heap α} {b l} (H : Holds h b l) : h.range b = .ok l := by
  obtain ⟨h1, h2, h3⟩ := H
  unfold Heap.range
  cases hm : b.memory with
  | none => simp [h1, h2 hm]
  | some a => simp [h3 a hm, h1]

theorem Holds.read {h : Heap α} {b l} (H : Holds h b l) (i : Nat) : h.read b i = l[i]?.elim .ub .ok := by
  obtain ⟨h1, h2, h3⟩ := H
  unfold Heap.read
  cases hm : b.memory with
  | none => simp [h2 hm]
  | some a => simp only [h3 a hm]; cases l[i]? <;> rfl

end Verif.Buffers
