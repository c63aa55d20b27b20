import Verif.Model.StdMap

/-! Lemmas on the map model. -/

namespace Verif.SMap
open Verif Verif.Text

variable {α β : Type}

theorem get?_nil (k : Str) : get? ([] : SMap α) k = none := rfl

theorem get?_cons (n k : Str) (v : α) (m : SMap α) :
    get? ((n, v) :: m) k = if n = k then some v else get? m k := rfl

theorem get?_set (m : SMap α) (k j : Str) (v : α) :
    (m.set k v).get? j = if k = j then some v else m.get? j := by
  induction m with
  | nil => rfl
  | cons p m ih =>
    obtain ⟨n, w⟩ := p
    simp only [set]
    by_cases h : n = k
    · subst h
      by_cases hj : n = j <;> simp [get?_cons, hj]
    · by_cases hj : k = j
      · subst hj
        simp [h, get?_cons, ih]
      · simp only [h, if_false, get?_cons, ih, hj]

theorem get?_isSome {m : SMap α} {k : Str} : (m.get? k).isSome = true ↔ k ∈ m.keys := by
  induction m with
  | nil => simp [get?, keys]
  | cons p m ih =>
    obtain ⟨n, w⟩ := p
    by_cases h : n = k
    · subst h; simp [get?_cons, keys]
    · have h' : k ≠ n := fun e => h e.symm
      simp only [get?_cons, h, if_false, ih]
      simp [keys, h']

theorem get?_eq_none {m : SMap α} {k : Str} : m.get? k = none ↔ k ∉ m.keys := by
  rw [← get?_isSome]; cases m.get? k <;> simp

theorem keys_set_mem {m : SMap α} {k : Str} (v : α) (h : k ∈ m.keys) : (m.set k v).keys = m.keys := by
  induction m with
  | nil => simp [keys] at h
  | cons p m ih =>
    obtain ⟨n, w⟩ := p
    by_cases hn : n = k
    · simp [set, hn, keys]
    · have h' : k ∈ keys m := by
        simp only [keys, List.map_cons, List.mem_cons] at h
        exact h.resolve_left fun e => hn e.symm
      have := ih h'
      simp only [set, hn, if_false, keys, List.map_cons] at this ⊢
      rw [this]

theorem set_not_mem {m : SMap α} {k : Str} (v : α) (h : k ∉ m.keys) : m.set k v = m ++ [(k, v)] := by
  induction m with
  | nil => rfl
  | cons p m ih =>
    obtain ⟨n, w⟩ := p
    simp only [keys, List.map_cons, List.mem_cons, not_or] at h
    have hn : n ≠ k := fun e => h.1 e.symm
    simp only [set, hn, if_false, List.cons_append]
    rw [ih h.2]

theorem set_self {m : SMap α} {k : Str} {v : α} (h : m.get? k = some v) : m.set k v = m := by
  induction m with
  | nil => simp [get?] at h
  | cons p m ih =>
    obtain ⟨n, w⟩ := p
    by_cases hn : n = k
    · simp only [get?_cons, hn, if_true, Option.some.injEq] at h
      simp [set, hn, h]
    · simp only [get?_cons, hn, if_false] at h
      simp only [set, hn, if_false]
      rw [ih h]

theorem set_map (m : SMap α) (f : α → β) (k : Str) (v : α) :
    (m.set k v).map (fun p => (p.1, f p.2)) = SMap.set (m.map fun p => (p.1, f p.2)) k (f v) := by
  induction m with
  | nil => rfl
  | cons p m ih =>
    obtain ⟨n, w⟩ := p
    by_cases hn : n = k
    · simp [set, hn]
    · simp only [set, hn, if_false, List.map_cons, ih]

theorem keys_set_not_mem {m : SMap α} {k : Str} (v : α) (h : k ∉ m.keys) :
    (m.set k v).keys = m.keys ++ [k] := by
  rw [set_not_mem v h]; simp [keys]

theorem wf_set {m : SMap α} (h : m.WF) (k : Str) (v : α) : (m.set k v).WF := by
  unfold WF at *
  by_cases hk : k ∈ m.keys
  · rw [keys_set_mem v hk]; exact h
  · rw [keys_set_not_mem v hk]
    refine List.nodup_append.2 ⟨h, List.nodup_cons.2 ⟨by simp, List.nodup_nil⟩, ?_⟩
    intro a ha b hb e
    simp only [List.mem_singleton] at hb
    exact hk (hb ▸ e ▸ ha)

/-- A map is determined by its keys, in order, and its values. -/
theorem ext {m m' : SMap α} (hk : m.keys = m'.keys) (hw : m.WF) (h : ∀ k, m.get? k = m'.get? k) :
    m = m' := by
  induction m generalizing m' with
  | nil => cases m' with
    | nil => rfl
    | cons p m' => simp [keys] at hk
  | cons p m ih =>
    cases m' with
    | nil => simp [keys] at hk
    | cons p' m' =>
      obtain ⟨n, v⟩ := p
      obtain ⟨n', v'⟩ := p'
      simp only [keys, List.map_cons, List.cons.injEq] at hk
      obtain ⟨rfl, hk⟩ := hk
      have hv := h n
      simp only [get?_cons, if_true, Option.some.injEq] at hv
      subst hv
      have hw' := List.nodup_cons.1 hw
      have hm : n ∉ SMap.keys m := hw'.1
      have hm' : n ∉ SMap.keys m' := by
        have : SMap.keys m = SMap.keys m' := hk
        rw [← this]; exact hm
      congr 1
      refine ih hk hw'.2 fun k => ?_
      by_cases hk' : n = k
      · subst hk'
        rw [get?_eq_none.2 hm, get?_eq_none.2 hm']
      · have := h k
        simpa only [get?_cons, hk', if_false] using this

theorem get?_map (m : SMap α) (f : Str → α → β) (k : Str) :
    get? (m.map fun p => (p.1, f p.1 p.2)) k = (m.get? k).map (f k) := by
  induction m with
  | nil => rfl
  | cons p m ih =>
    obtain ⟨n, v⟩ := p
    by_cases h : n = k
    · subst h; simp [get?_cons]
    · simp only [List.map_cons, get?_cons, h, if_false]; exact ih

theorem keys_map (m : SMap α) (f : Str → α → β) :
    keys (m.map fun p => (p.1, f p.1 p.2)) = m.keys := by
  simp [keys]

theorem mem_of_get? {m : SMap α} {k : Str} {v : α} (h : m.get? k = some v) : (k, v) ∈ m := by
  induction m with
  | nil => simp [get?] at h
  | cons p m ih =>
    obtain ⟨n, w⟩ := p
    by_cases hn : n = k
    · subst hn
      simp only [get?_cons, if_true, Option.some.injEq] at h
      subst h; exact List.mem_cons_self
    · simp only [get?_cons, hn, if_false] at h
      exact List.mem_cons_of_mem _ (ih h)

theorem get?_of_mem {m : SMap α} (hw : m.WF) {k : Str} {v : α} (h : (k, v) ∈ m) : m.get? k = some v := by
  induction m with
  | nil => simp at h
  | cons p m ih =>
    obtain ⟨n, w⟩ := p
    have hw' := List.nodup_cons.1 hw
    rcases List.mem_cons.1 h with e | h'
    · cases e; simp [get?_cons]
    · have : n ≠ k := by
        rintro rfl
        exact hw'.1 (List.mem_map.2 ⟨_, h', rfl⟩)
      simp only [get?_cons, this, if_false]
      exact ih hw'.2 h'

/-- Inserting the entries of a map one after the other, each as `f` makes it, gives them all. -/
theorem foldl_set {m : SMap β} (hm : m.WF) (f : Str → β → α) (acc : SMap α)
    (hd : ∀ k ∈ m.keys, k ∉ acc.keys) :
    m.foldl (fun a p => a.set p.1 (f p.1 p.2)) acc = acc ++ m.map fun p => (p.1, f p.1 p.2) := by
  induction m generalizing acc with
  | nil => simp
  | cons p m ih =>
    obtain ⟨n, v⟩ := p
    have hw := List.nodup_cons.1 hm
    have hn : n ∉ acc.keys := hd n (by simp [keys])
    simp only [List.foldl_cons]
    rw [ih hw.2, set_not_mem _ hn]
    · simp
    · intro k hk
      rw [keys_set_not_mem _ hn, List.mem_append, not_or]
      refine ⟨hd k (by simp only [keys, List.map_cons, List.mem_cons]; exact .inr hk), ?_⟩
      simp only [List.mem_singleton]
      rintro rfl
      exact hw.1 hk

end Verif.SMap
