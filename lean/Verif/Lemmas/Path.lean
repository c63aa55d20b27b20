import Verif.Model.Path
import Verif.Lemmas.Text
import Mathlib.Tactic.Ring
import Mathlib.Tactic.ByContra

/-! Lemmas on file names. -/

namespace Verif.Path
open Verif Verif.Text

theorem joinLoop_eq (res : Str) (parts : List Str) :
    joinLoop res parts = res ++ (parts.map ('/' :: ·)).flatten := by
  induction parts generalizing res with
  | nil => simp [joinLoop]
  | cons p ps ih => simp [joinLoop, ih]

theorem join_cons (p : Str) (ps : List Str) : join (p :: ps) = p ++ (ps.map ('/' :: ·)).flatten := by
  simp [join, joinLoop_eq]

theorem split_mem {path : Str} (h : '/' ∈ path) :
    split path = before '/' path :: split (eraseThrough '/' path) := by
  rw [split]; simp [h]

theorem split_not_mem {path : Str} (h : '/' ∉ path) : split path = [path] := by
  rw [split]; simp [h]

theorem split_append {p rest : Str} (h : '/' ∉ p) : split (p ++ '/' :: rest) = p :: split rest := by
  rw [split_mem (by simp), before_append h, erase_append h]

theorem cut {c : Char} {s : Str} (h : c ∈ s) : ∃ a b, s = a ++ c :: b ∧ c ∉ a := by
  induction s with
  | nil => cases h
  | cons d s ih =>
    by_cases hd : d = c
    · exact ⟨[], s, by simp [hd], by simp⟩
    · obtain ⟨a, b, rfl, hn⟩ := ih (by
        rcases List.mem_cons.1 h with e | h
        · exact absurd e.symm hd
        · exact h)
      exact ⟨d :: a, b, rfl, by simp only [List.mem_cons, not_or]; exact ⟨fun e => hd e.symm, hn⟩⟩

theorem fromLast_none {c : Char} {s : Str} (h : c ∉ s) : fromLast c s = none := by
  induction s with
  | nil => rfl
  | cons d s ih =>
    simp only [List.mem_cons, not_or] at h
    have : ¬ d = c := fun e => h.1 e.symm
    simp [fromLast, ih h.2, this]

theorem fromLast_append {c : Char} {a b : Str} (h : c ∉ b) : fromLast c (a ++ c :: b) = some (c :: b) := by
  induction a with
  | nil => simp [fromLast, fromLast_none h]
  | cons d a ih => simp [fromLast, ih]

theorem requireLoop_eq (p : Str) (ds : List Str) :
    requireLoop p ds = (List.range ds.length).map fun i => p ++ ((ds.take (i + 1)).map ('/' :: ·)).flatten := by
  induction ds generalizing p with
  | nil => rfl
  | cons d ds ih =>
    rw [requireLoop, ih, List.length_cons, List.range_succ_eq_map, List.map_cons, List.map_map]
    refine List.cons_eq_cons.2 ⟨by simp, ?_⟩
    refine List.map_congr_left fun i _ => ?_
    simp

/-- Equally long strings of digits are ordered by their values. -/
theorem digits_lt {s t : Str} (hl : s.length = t.length) (hs : ∀ c ∈ s, isDigit c = true)
    (ht : ∀ c ∈ t, isDigit c = true) (x y : Str) (h : digitsVal s < digitsVal t) : s ++ x < t ++ y := by
  have fold : ∀ (s : Str) (a : Nat), s.foldl (fun v c => 10 * v + (c.toNat - 48)) a =
      a * 10 ^ s.length + digitsVal s := by
    intro s
    induction s with
    | nil => intro a; simp [digitsVal]
    | cons c s ih =>
      intro a
      have e : digitsVal (c :: s) = s.foldl (fun v c => 10 * v + (c.toNat - 48)) (10 * 0 + (c.toNat - 48)) := rfl
      rw [List.foldl_cons, ih, e, ih, List.length_cons, Nat.pow_succ]
      ring_nf
  have bound : ∀ (s : Str), (∀ c ∈ s, isDigit c = true) → digitsVal s < 10 ^ s.length := by
    intro s
    induction s with
    | nil => intro _; simp [digitsVal]
    | cons c s ih =>
      intro hd
      have h1 := hd c List.mem_cons_self
      have h2 := ih fun d hd' => hd d (List.mem_cons_of_mem _ hd')
      have e : digitsVal (c :: s) = s.foldl (fun v c => 10 * v + (c.toNat - 48)) (10 * 0 + (c.toNat - 48)) := rfl
      rw [e, fold, List.length_cons, Nat.pow_succ]
      simp only [isDigit, Bool.and_eq_true, decide_eq_true_eq] at h1
      have h3 : (10 * 0 + (c.toNat - 48)) ≤ 9 := by omega
      have h4 := Nat.mul_le_mul_right (10 ^ s.length) h3
      omega
  induction s generalizing t with
  | nil =>
    cases t with
    | nil => exact absurd h (Nat.lt_irrefl _)
    | cons d t => simp at hl
  | cons c s ih =>
    cases t with
    | nil => simp at hl
    | cons d t =>
      have e1 : digitsVal (c :: s) = s.foldl (fun v c => 10 * v + (c.toNat - 48)) (10 * 0 + (c.toNat - 48)) := rfl
      have e2 : digitsVal (d :: t) = t.foldl (fun v c => 10 * v + (c.toNat - 48)) (10 * 0 + (d.toNat - 48)) := rfl
      have hc := hs c List.mem_cons_self
      have hd := ht d List.mem_cons_self
      have hs' : ∀ c ∈ s, isDigit c = true := fun a ha => hs a (List.mem_cons_of_mem _ ha)
      have ht' : ∀ c ∈ t, isDigit c = true := fun a ha => ht a (List.mem_cons_of_mem _ ha)
      have hl' : s.length = t.length := by simpa using hl
      rw [e1, e2, fold, fold, ← hl'] at h
      have b1 := bound s hs'
      have b2 := bound t ht'
      rw [← hl'] at b2
      simp only [isDigit, Bool.and_eq_true, decide_eq_true_eq] at hc hd
      rw [List.cons_append, List.cons_append, List.cons_lt_cons_iff]
      by_cases hcd : c = d
      · subst hcd
        exact .inr ⟨rfl, ih hl' hs' ht' (by omega)⟩
      · left
        have hne : c.toNat ≠ d.toNat := fun e => hcd (Char.toNat_inj.1 e)
        have : c.toNat < d.toNat := by
          by_contra hge
          have h5 : (10 * 0 + (d.toNat - 48)) + 1 ≤ 10 * 0 + (c.toNat - 48) := by omega
          have h6 := Nat.mul_le_mul_right (10 ^ s.length) h5
          rw [Nat.add_mul, Nat.one_mul] at h6
          omega
        exact this

theorem pad_length_le {n : Nat} (h : n < 2 ^ 31) : (pad 4 (showNat n)).length ≤ 10 := by
  have := showNat_length_le (n := n) (k := 10) (by omega) (by omega)
  simp only [pad, List.length_append, List.length_replicate]; omega

theorem pad_length_four {n : Nat} (h : n < 10000) : (pad 4 (showNat n)).length = 4 := by
  have := showNat_length_le (n := n) (k := 4) (by omega) (by omega)
  simp only [pad, List.length_append, List.length_replicate]; omega

theorem numbered_eq {pre ext : Str} {n : Nat} (h : n < 2 ^ 31) (hl : pre.length + ext.length ≤ 1011) :
    numbered pre n ext = pre ++ '.' :: (pad 4 (showNat n) ++ '.' :: ext) := by
  unfold numbered
  rw [List.take_of_length_le]
  · simp
  · have := pad_length_le h
    simp only [List.length_append, List.length_cons]; omega

theorem numbered_inj {pre ext : Str} {n m : Nat} (hn : n < 2 ^ 31) (hm : m < 2 ^ 31)
    (hl : pre.length + ext.length ≤ 1011) (h : numbered pre n ext = numbered pre m ext) : n = m := by
  rw [numbered_eq hn hl, numbered_eq hm hl] at h
  have h1 := List.append_cancel_left h
  simp only [List.cons.injEq, true_and] at h1
  exact pad_inj (List.append_cancel_right h1)

end Verif.Path
