import Verif.Model.GroupFiles
import Verif.Props.Groups
import Verif.Lemmas.StdMap

/-!
# C139: schedules and configurations in files, whatever the order of HDF5 and whatever else there is
-/

namespace Verif.Groups
open Verif Verif.Text

variable {δ : Type}

theorem plain_name : Plain nameKey := by unfold Plain; decide
theorem plain_num : Plain numKey := by unfold Plain; decide
theorem plain_last : Plain lastKey := by unfold Plain; decide

/-- In a file that can be, there is nothing below a path where there is nothing. -/
theorem Sound.below {τ σ ν : Type} {f : File τ σ ν} (hs : Sound f) {p : Path} (h0 : p ≠ []) (h : objectAt f p = none) (n : Str) : objectAt f (p ++ [n]) = none := by
  rw [objectAt_none (not_root _ _)]
  intro hm
  obtain ⟨x, hx, e⟩ := List.mem_map.1 hm
  have := (hs.inside x hx).2
  rw [e, List.dropLast_concat, groupAt, h] at this
  cases this

theorem read_congr {τ σ ν : Type} [DecidableEq τ] {f g : File τ σ ν} {loc : Path} {n : Str} (hp : Plain n) (h : objectAt f (loc ++ [n]) = objectAt g (loc ++ [n])) (t : τ) :
    read f loc n t = read g loc n t := by
  unfold read openDataset
  rw [target_plain loc hp, h]

theorem prefix_child {loc : Path} {a b : Str} {r : Path} (h : loc ++ [a] <+: loc ++ b :: r) : a = b := by
  rw [List.prefix_append_right_inj, List.cons_prefix_cons] at h
  exact h.1

theorem child_prefix (loc : Path) (k : Str) : ¬ loc ++ [k] <+: loc := by
  intro h
  have := h.length_le
  rw [List.length_append] at this
  simp only [List.length_singleton] at this
  omega

/-- What a task leaves in a file. -/
structure HasTask (f : Store δ) (loc : Path) (k : Str) (t : Sched.TaskRec δ) : Prop where
  group : groupAt f (loc ++ [k]) = true
  num : read f (loc ++ [k]) numKey .int = .ok (some (.int t.num))
  last : read f (loc ++ [k]) lastKey .dbl = .ok (some (.dbl t.last))

theorem HasTask.congr {f g : Store δ} {loc : Path} {k : Str} {t : Sched.TaskRec δ} (h : HasTask f loc k t) (e : ∀ q, loc ++ [k] <+: q → objectAt g q = objectAt f q) : HasTask g loc k t :=
  ⟨by rw [groupAt, e _ (List.prefix_refl _)]; exact h.group,
    by rw [read_congr plain_num (e _ (List.prefix_append _ _))]; exact h.num,
    by rw [read_congr plain_last (e _ (List.prefix_append _ _))]; exact h.last⟩

theorem writeTask_spec {f : Store δ} (hs : Sound f) (hw : f.writable = true) {loc : Path} (hg : groupAt f loc = true) {k : Str} (hp : Plain k)
    (hn : objectAt f (loc ++ [k]) = none) (t : Sched.TaskRec δ) :
    ∃ f', writeTask f loc k t = .ok f' ∧ Sound f' ∧ f'.writable = true ∧ HasTask f' loc k t ∧ ∀ q, ¬ loc ++ [k] <+: q → objectAt f' q = objectAt f q := by
  obtain ⟨f1, e1, s1, w1, g1, o1, -⟩ := requireGroup_spec hs hw hg hp (by rw [hn]; intro d h; cases h)
  have new : ∀ n, objectAt f1 (loc ++ [k] ++ [n]) = none := fun n => by
    rw [o1 _ (by intro e; simpa using congrArg List.length e), hs.below (not_root _ _) hn]
  obtain ⟨f2, e2, s2, w2, -, o2⟩ := write_read s1 w1 g1 plain_name (ofStr t.name : Val δ).type () (ofStr t.name) (by rw [new]; intro x h; cases h)
  have ne : ∀ n : Str, loc ++ [k] ≠ loc ++ [k] ++ [n] := fun n e => by simpa using congrArg List.length e
  have nk : ∀ {a b : Str}, a ≠ b → loc ++ [k] ++ [a] ≠ loc ++ [k] ++ [b] := fun h e => h (by simpa using e)
  have g2 : groupAt f2 (loc ++ [k]) = true := by rw [groupAt, o2 _ (ne _)]; exact g1
  obtain ⟨f3, e3, s3, w3, r3, o3⟩ := write_read s2 w2 g2 plain_num (Val.int t.num : Val δ).type () (.int t.num)
    (by rw [o2 _ (nk (by decide)), new]; intro x h; cases h)
  have g3 : groupAt f3 (loc ++ [k]) = true := by rw [groupAt, o3 _ (ne _)]; exact g2
  obtain ⟨f4, e4, s4, w4, r4, o4⟩ := write_read s3 w3 g3 plain_last (Val.dbl t.last : Val δ).type () (.dbl t.last)
    (by rw [o3 _ (nk (by decide)), o2 _ (nk (by decide)), new]; intro x h; cases h)
  refine ⟨f4, ?_, s4, w4, ⟨by rw [groupAt, o4 _ (ne _)]; exact g3, ?_, r4⟩, ?_⟩
  · unfold writeTask put
    rw [e1, Outcome.bind_ok, e2, Outcome.bind_ok, e3, Outcome.bind_ok, e4]
  · rw [read_congr plain_num (o4 _ (nk (by decide)))]
    exact r3
  · intro q hq
    have h1 : q ≠ loc ++ [k] := by rintro rfl; exact hq (List.prefix_refl _)
    have h2 : ∀ n, q ≠ loc ++ [k] ++ [n] := by rintro n rfl; exact hq (List.prefix_append _ _)
    rw [o4 _ (h2 _), o3 _ (h2 _), o2 _ (h2 _), o1 _ h1]

theorem writeTasks_spec {loc : Path} : ∀ (s : Sched.Schedule δ) (f : Store δ), Sound f → f.writable = true → groupAt f loc = true → s.WF →
    (∀ k ∈ s.keys, Plain k ∧ objectAt f (loc ++ [k]) = none) →
    ∃ f', writeTasks f loc s = .ok f' ∧ Sound f' ∧ f'.writable = true ∧ (∀ k t, s.get? k = some t → HasTask f' loc k t) ∧
      ∀ q, (∀ k ∈ s.keys, ¬ loc ++ [k] <+: q) → objectAt f' q = objectAt f q
  | [], f, hs, hw, _, _, _ => ⟨f, rfl, hs, hw, ⟨fun k t h => (nomatch h), fun _ _ => rfl⟩⟩
  | (k, t) :: rest, f, hs, hw, hg, hwf, hk => by
    obtain ⟨hp, hn⟩ := hk k (by simp [SMap.keys])
    have hnd : k ∉ SMap.keys rest ∧ SMap.WF rest := by simpa [SMap.WF, SMap.keys] using hwf
    obtain ⟨f1, e1, s1, w1, t1, o1⟩ := writeTask_spec hs hw hg hp hn t
    have g1 : groupAt f1 loc = true := by rw [groupAt, o1 _ (child_prefix _ _)]; exact hg
    obtain ⟨f2, e2, s2, w2, t2, o2⟩ := writeTasks_spec rest f1 s1 w1 g1 hnd.2 (fun j hj => by
      obtain ⟨a, b⟩ := hk j (by simp only [SMap.keys, List.map_cons, List.mem_cons]; exact Or.inr hj)
      refine ⟨a, ?_⟩
      rw [o1, b]
      intro h
      have := prefix_child h
      subst this
      exact hnd.1 hj)
    refine ⟨f2, ?_, s2, w2, ?_, ?_⟩
    · unfold writeTasks
      rw [e1, Outcome.bind_ok, e2]
    · intro j u hj
      rw [SMap.get?_cons] at hj
      split at hj
      · rename_i h
        subst h
        cases hj
        refine t1.congr fun q hq => o2 q fun i hi hq' => ?_
        obtain ⟨r, rfl⟩ := hq
        rw [List.append_assoc] at hq'
        have := prefix_child hq'
        subst this
        exact hnd.1 hi
      · exact t2 j u hj
    · intro q hq
      rw [o2 q fun i hi => hq i (by simp only [SMap.keys, List.map_cons, List.mem_cons]; exact Or.inr hi), o1 q (hq k (by simp [SMap.keys]))]

theorem readTask_spec [Zero δ] {f : Store δ} {loc : Path} {k : Str} (hp : Plain k) {t : Sched.TaskRec δ} (h : HasTask f loc k t) (s : Sched.Schedule δ) :
    readTask f loc s k = .ok (s.set k ⟨k, t.num, t.last, false⟩) := by
  unfold readTask openGroup getInt getDbl
  rw [target_plain loc hp, if_pos h.group, Outcome.bind_ok, h.num, h.last]
  rfl

theorem readTaskLoop_spec [Zero δ] {f : Store δ} {loc : Path} {s : Sched.Schedule δ} (hp : ∀ k ∈ s.keys, Plain k) (ht : ∀ k t, s.get? k = some t → HasTask f loc k t) :
    ∀ (l : List Str) (s0 : Sched.Schedule δ), (∀ k ∈ l, k ∈ s.keys) →
    ∃ s', readTaskLoop f loc s0 l = .ok s' ∧ ∀ k, s'.get? k = if k ∈ l then (s.get? k).map (fun t => ⟨k, t.num, t.last, false⟩) else s0.get? k
  | [], s0, _ => ⟨s0, rfl, fun k => by simp⟩
  | j :: l, s0, hl => by
    have hj := hl j (by simp)
    obtain ⟨t, hjt⟩ := Option.isSome_iff_exists.1 (SMap.get?_isSome.2 hj)
    obtain ⟨s', e, h⟩ := readTaskLoop_spec hp ht l (s0.set j ⟨j, t.num, t.last, false⟩) fun k hk => hl k (List.mem_cons_of_mem _ hk)
    refine ⟨s', ?_, fun k => ?_⟩
    · unfold readTaskLoop
      rw [readTask_spec (hp j hj) (ht j t hjt), Outcome.bind_ok, e]
    · rw [h k, SMap.get?_set]
      by_cases hk : k ∈ l
      · rw [if_pos hk, if_pos (List.mem_cons_of_mem _ hk)]
      · rw [if_neg hk]
        by_cases e : j = k
        · subst e
          simp [hjt]
        · have : k ∉ j :: l := by simp [hk, Ne.symm e]
          rw [if_neg this]
          simp [e, Ne.symm e]

/-- **C139.** A schedule that is written to an empty group of a file is read back from it with the same tasks, counts and times, none of them due, in whatever order
HDF5 lists the group; nothing outside of the group changes. -/
theorem schedule_file [Zero δ] {f : Store δ} (hs : Sound f) (hw : f.writable = true) {loc : Path} (hg : groupAt f loc = true) (he : ∀ n, objectAt f (loc ++ [n]) = none)
    {s : Sched.Schedule δ} (hwf : s.WF) (hk : ∀ k ∈ s.keys, Plain k ∧ k.length < 1024) :
    ∃ f', writeTasks f loc s = .ok f' ∧ Sound f' ∧ (∀ q, (∀ n, ¬ loc ++ [n] <+: q) → objectAt f' q = objectAt f q) ∧
      ∀ order : List Str → List Str, (∀ l, (order l).Perm l) →
      ∃ s', readTasks order f' loc = .ok s' ∧ ∀ k, s'.get? k = (s.get? k).map fun t => ⟨k, t.num, t.last, false⟩ := by
  obtain ⟨f', e, s', -, t', o'⟩ := writeTasks_spec s f hs hw hg hwf fun k h => ⟨(hk k h).1, he k⟩
  refine ⟨f', e, s', fun q hq => o' q fun k _ => hq k, fun order ho => ?_⟩
  have mem : ∀ n, (objectAt f' (loc ++ [n])).isSome = true ↔ n ∈ s.keys := by
    intro n
    constructor
    · intro h
      by_contra hn
      rw [o' _ fun k hk h => hn (by rw [← prefix_child (r := []) h]; exact hk), he] at h
      cases h
    · intro h
      obtain ⟨t, ht⟩ := Option.isSome_iff_exists.1 (SMap.get?_isSome.2 h)
      have := (t' n t ht).group
      rw [groupAt] at this
      cases hx : objectAt f' (loc ++ [n]) with
      | none => rw [hx] at this; cases this
      | some x => rfl
  obtain ⟨l, el, -, -, hl⟩ := iterate_partial s' loc ho fun n h => (hk n ((mem n).1 h)).2
  obtain ⟨r, er, hr⟩ := readTaskLoop_spec (fun k h => (hk k h).1) t' l [] fun k h => (mem k).1 ((hl k).1 h)
  refine ⟨r, by unfold readTasks; rw [el, Outcome.bind_ok, er], fun k => ?_⟩
  rw [hr k]
  split
  · rfl
  · rename_i h
    rw [hl, mem, ← SMap.get?_isSome] at h
    rw [Option.not_isSome_iff_eq_none.1 h]
    rfl

/-- A file with a group `s` and a dataset `x`. -/
def empty : Store ℕ := ⟨true, [([['s']], .group), ([['x']], .data ⟨.int, (), none, some (.int 3)⟩)]⟩

theorem empty_sound : Sound empty := ⟨by decide, by intro x hx; simp [empty] at hx; rcases hx with rfl | rfl <;> exact ⟨by simp, by decide⟩⟩

theorem empty_group (n : Str) : objectAt empty ([['s']] ++ [n]) = none := by
  have : n ∉ members empty [['s']] := by
    have e : members empty [['s']] = [] := by decide
    rw [e]
    simp
  rw [mem_members] at this
  exact Option.not_isSome_iff_eq_none.1 this

example : Sound empty ∧ empty.writable = true ∧ groupAt empty [['s']] = true ∧ (∀ n, objectAt empty ([['s']] ++ [n]) = none) ∧
    SMap.WF ([(['a'], ⟨['a'], 4, 2, true⟩), (['x'], ⟨['x'], 1, 7, false⟩)] : Sched.Schedule ℕ) ∧ ∀ k ∈ [['a'], ['x']], Plain k ∧ k.length < 1024 :=
  ⟨empty_sound, rfl, by decide, empty_group, by decide, by intro k hk; simp at hk; rcases hk with rfl | rfl <;> exact ⟨by unfold Plain; decide, by decide⟩⟩

/-! ### Configurations -/

/-- What comes back of a parameter: an empty string has become one null character. -/
def stored : Config.Param δ → Config.Param δ
  | .str s => .str (if s = [] then [Char.ofNat 0] else s)
  | v => v

theorem putParam_spec [Zero δ] {f : Store δ} (hs : Sound f) (hw : f.writable = true) {loc : Path} (hg : groupAt f loc = true) {k : Str} (hp : Plain k)
    (hn : objectAt f (loc ++ [k]) = none) (v : Config.Param δ) :
    ∃ f', put f loc k (ofParam v) = .ok f' ∧ Sound f' ∧ f'.writable = true ∧ readParam f' loc k = .ok (stored v) ∧ ∀ q, q ≠ loc ++ [k] → objectAt f' q = objectAt f q := by
  obtain ⟨f', e, s', w', r', o'⟩ := write_read hs hw hg hp (ofParam v).type () (ofParam v) (by rw [hn]; intro x h; cases h)
  refine ⟨f', e, s', w', ?_, o'⟩
  have hd : ∃ d, openDataset f' loc k = .ok d ∧ d.2.type = (ofParam v).type := by
    unfold read at r'
    rw [Outcome.bind_eq_ok] at r'
    obtain ⟨d, h1, h2⟩ := r'
    refine ⟨d, h1, ?_⟩
    by_contra h
    rw [if_neg h] at h2
    cases h2
  obtain ⟨d, h1, h2⟩ := hd
  unfold readParam
  rw [h1, Outcome.bind_ok, h2]
  cases v with
  | int i => simp only [ofParam, Val.type, getInt] at r' ⊢; rw [r']; rfl
  | dbl x => simp only [ofParam, Val.type, getDbl] at r' ⊢; rw [r']; rfl
  | str s =>
    simp only [ofParam, ofStr, Val.type] at r' ⊢
    rw [r']
    cases s <;> rfl

theorem readParam_congr [Zero δ] {f g : Store δ} {loc : Path} {n : Str} (hp : Plain n) (h : objectAt f (loc ++ [n]) = objectAt g (loc ++ [n])) :
    readParam f loc n = readParam g loc n := by
  unfold readParam getInt getDbl openDataset
  simp only [read_congr hp h]
  rw [target_plain loc hp, h]

theorem writeParams_spec [Zero δ] {loc : Path} : ∀ (s : SMap (Config.Param δ)) (f : Store δ), Sound f → f.writable = true → groupAt f loc = true → s.WF →
    (∀ k ∈ s.keys, Plain k ∧ objectAt f (loc ++ [k]) = none) →
    ∃ f', writeParams f loc s = .ok f' ∧ Sound f' ∧ (∀ k v, s.get? k = some v → readParam f' loc k = .ok (stored v) ∧ (objectAt f' (loc ++ [k])).isSome = true) ∧
      ∀ q, (∀ k ∈ s.keys, q ≠ loc ++ [k]) → objectAt f' q = objectAt f q
  | [], f, hs, _, _, _, _ => ⟨f, rfl, hs, ⟨fun k t h => (nomatch h), fun _ _ => rfl⟩⟩
  | (k, v) :: rest, f, hs, hw, hg, hwf, hk => by
    obtain ⟨hp, hn⟩ := hk k (by simp [SMap.keys])
    have hnd : k ∉ SMap.keys rest ∧ SMap.WF rest := by simpa [SMap.WF, SMap.keys] using hwf
    obtain ⟨f1, e1, s1, w1, r1, o1⟩ := putParam_spec hs hw hg hp hn v
    have g1 : groupAt f1 loc = true := by rw [groupAt, o1 _ (by intro e; simpa using congrArg List.length e)]; exact hg
    obtain ⟨f2, e2, s2, t2, o2⟩ := writeParams_spec rest f1 s1 w1 g1 hnd.2 (fun j hj => by
      obtain ⟨a, b⟩ := hk j (by simp only [SMap.keys, List.map_cons, List.mem_cons]; exact Or.inr hj)
      refine ⟨a, ?_⟩
      rw [o1, b]
      intro h
      have : j = k := by simpa using h
      subst this
      exact hnd.1 hj)
    refine ⟨f2, ?_, s2, ?_, ?_⟩
    · unfold writeParams
      rw [e1, Outcome.bind_ok, e2]
    · intro j u hj
      rw [SMap.get?_cons] at hj
      split at hj
      · rename_i h
        subst h
        cases hj
        have same : objectAt f2 (loc ++ [k]) = objectAt f1 (loc ++ [k]) := o2 _ fun i hi e => by
          have : k = i := by simpa using e
          subst this
          exact hnd.1 hi
        refine ⟨by rw [readParam_congr hp same]; exact r1, ?_⟩
        rw [same]
        cases hx : objectAt f1 (loc ++ [k]) with
        | some x => rfl
        | none =>
          unfold readParam openDataset at r1
          rw [target_plain loc hp, hx] at r1
          cases r1
      · exact t2 j u hj
    · intro q hq
      rw [o2 q fun i hi => hq i (by simp only [SMap.keys, List.map_cons, List.mem_cons]; exact Or.inr hi), o1 q (hq k (by simp [SMap.keys]))]

theorem readParamLoop_spec [Zero δ] {f : Store δ} {loc : Path} {s : SMap (Config.Param δ)} (ht : ∀ k v, s.get? k = some v → readParam f loc k = .ok (stored v)) :
    ∀ (l : List Str) (s0 : SMap (Config.Param δ)), (∀ k ∈ l, k ∈ s.keys) →
    ∃ s', readParamLoop f loc s0 l = .ok s' ∧ ∀ k, s'.get? k = if k ∈ l then (s.get? k).map stored else s0.get? k
  | [], s0, _ => ⟨s0, rfl, fun k => by simp⟩
  | j :: l, s0, hl => by
    have hj := hl j (by simp)
    obtain ⟨v, hjv⟩ := Option.isSome_iff_exists.1 (SMap.get?_isSome.2 hj)
    obtain ⟨s', e, h⟩ := readParamLoop_spec ht l (s0.set j (stored v)) fun k hk => hl k (List.mem_cons_of_mem _ hk)
    refine ⟨s', ?_, fun k => ?_⟩
    · unfold readParamLoop
      rw [ht j v hjv]
      exact e
    · rw [h k, SMap.get?_set]
      by_cases hk : k ∈ l
      · rw [if_pos hk, if_pos (List.mem_cons_of_mem _ hk)]
      · rw [if_neg hk]
        by_cases e : j = k
        · subst e
          simp [hjv]
        · have : k ∉ j :: l := by simp [hk, Ne.symm e]
          rw [if_neg this]
          simp [e, Ne.symm e]

/-- **C139.** A configuration that is written to an empty group of a file is read back from it, in whatever order HDF5 lists the group (but for empty strings, which come back as
a null character: C43); nothing outside of the group changes. -/
theorem config_file [Zero δ] {f : Store δ} (hs : Sound f) (hw : f.writable = true) {loc : Path} (hg : groupAt f loc = true) (he : ∀ n, objectAt f (loc ++ [n]) = none)
    {s : SMap (Config.Param δ)} (hwf : s.WF) (hk : ∀ k ∈ s.keys, Plain k ∧ k.length < 1024) :
    ∃ f', writeParams f loc s = .ok f' ∧ Sound f' ∧ (∀ q, (∀ n, q ≠ loc ++ [n]) → objectAt f' q = objectAt f q) ∧
      ∀ order : List Str → List Str, (∀ l, (order l).Perm l) →
      ∃ s', readParams order f' loc = .ok s' ∧ ∀ k, s'.get? k = (s.get? k).map stored := by
  obtain ⟨f', e, s', t', o'⟩ := writeParams_spec s f hs hw hg hwf fun k h => ⟨(hk k h).1, he k⟩
  refine ⟨f', e, s', fun q hq => o' q fun k _ => hq k, fun order ho => ?_⟩
  have mem : ∀ n, (objectAt f' (loc ++ [n])).isSome = true ↔ n ∈ s.keys := by
    intro n
    constructor
    · intro h
      by_contra hn
      rw [o' _ fun k hk h => hn (by have : n = k := by simpa using h
                                    rwa [this]), he] at h
      cases h
    · intro h
      obtain ⟨t, ht⟩ := Option.isSome_iff_exists.1 (SMap.get?_isSome.2 h)
      exact (t' n t ht).2
  obtain ⟨l, el, -, -, hl⟩ := iterate_partial s' loc ho fun n h => (hk n ((mem n).1 h)).2
  obtain ⟨r, er, hr⟩ := readParamLoop_spec (fun k v h => (t' k v h).1) l [] fun k h => (mem k).1 ((hl k).1 h)
  refine ⟨r, by unfold readParams; rw [el, Outcome.bind_ok, er], fun k => ?_⟩
  rw [hr k]
  split
  · rfl
  · rename_i h
    rw [hl, mem, ← SMap.get?_isSome] at h
    rw [Option.not_isSome_iff_eq_none.1 h]
    rfl

example : Sound empty ∧ empty.writable = true ∧ groupAt empty [['s']] = true ∧ (∀ n, objectAt empty ([['s']] ++ [n]) = none) ∧
    SMap.WF ([(['a'], .int 4), (['x'], .str ['h'])] : SMap (Config.Param ℕ)) ∧ ∀ k ∈ [['a'], ['x']], Plain k ∧ k.length < 1024 :=
  ⟨empty_sound, rfl, by decide, empty_group, by decide, by intro k hk; simp at hk; rcases hk with rfl | rfl <;> exact ⟨by unfold Plain; decide, by decide⟩⟩

end Verif.Groups
