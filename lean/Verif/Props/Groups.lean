import Verif.Spec.Groups
import Mathlib.Data.List.Nodup

/-!
# C138: groups of HDF5 files
-/

namespace Verif.Groups
open Verif Verif.Text

variable {τ σ ν : Type}

theorem objectAt_ne {f : File τ σ ν} {p : Path} (h : p ≠ []) : objectAt f p = (f.objects.find? fun x => decide (x.1 = p)).map (·.2) := if_neg h

theorem cstr_plain {n : Str} (h : Char.ofNat 0 ∉ n) : cstr n = n := by
  unfold cstr
  induction n with
  | nil => rfl
  | cons c n ih =>
    rw [List.takeWhile_cons_of_pos, ih fun hm => h (List.mem_cons_of_mem _ hm)]
    rw [decide_eq_true_eq]
    rintro rfl
    exact h (by simp)

theorem components_plain {n : Str} (h : Plain n) : components n = [n] := by
  unfold components
  rw [cstr_plain h.2.2.2, List.splitOn_eq_singleton h.2.2.1]
  simp [h.1, h.2.1]

theorem target_plain {n : Str} (loc : Path) (h : Plain n) : target loc n = loc ++ [n] := by
  unfold target
  rw [cstr_plain h.2.2.2, components_plain h, if_neg]
  intro hh
  exact h.2.2.1 (List.mem_of_mem_head? hh)

theorem objectAt_append {f : File τ σ ν} {w : Bool} {p q : Path} {x : Node τ σ ν} (h : q ≠ p) :
    objectAt ⟨w, f.objects ++ [(p, x)]⟩ q = objectAt f q := by
  unfold objectAt
  split
  · rfl
  · rw [List.find?_append]
    have : List.find? (fun y : Path × Node τ σ ν => decide (y.1 = q)) [(p, x)] = none := by
      simp [Ne.symm h]
    rw [this]
    simp

theorem objectAt_new {f : File τ σ ν} {w : Bool} {p : Path} {x : Node τ σ ν} (h0 : p ≠ []) (h : objectAt f p = none) :
    objectAt ⟨w, f.objects ++ [(p, x)]⟩ p = some x := by
  rw [objectAt_ne h0] at h ⊢
  rw [Option.map_eq_none_iff] at h
  dsimp only
  rw [List.find?_append, h]
  simp

theorem objectAt_none {f : File τ σ ν} {p : Path} (h0 : p ≠ []) : objectAt f p = none ↔ p ∉ f.objects.map (·.1) := by
  rw [objectAt_ne h0, Option.map_eq_none_iff, List.find?_eq_none]
  simp only [decide_eq_true_eq, List.mem_map, not_exists, not_and]

theorem not_root (loc : Path) (n : Str) : loc ++ [n] ≠ [] := by simp

theorem sound_create {f : File τ σ ν} (hs : Sound f) {p : Path} {x : Node τ σ ν} {w : Bool} (h0 : p ≠ []) (hg : groupAt f p.dropLast = true) (hn : objectAt f p = none) :
    Sound ⟨w, f.objects ++ [(p, x)]⟩ := by
  have key : ∀ q, groupAt f q = true → groupAt ⟨w, f.objects ++ [(p, x)]⟩ q = true := by
    intro q hq
    by_cases e : q = p
    · subst e
      rw [groupAt, hn] at hq
      cases hq
    · rwa [groupAt, objectAt_append e]
  constructor
  · dsimp only
    rw [List.map_append, List.nodup_append]
    refine ⟨hs.once, by simp, ?_⟩
    intro a ha b hb
    simp only [List.map_cons, List.map_nil, List.mem_singleton] at hb
    subst hb
    rintro rfl
    exact (objectAt_none h0).1 hn ha
  · intro y hy
    rcases List.mem_append.1 hy with hy | hy
    · exact ⟨(hs.inside y hy).1, key _ (hs.inside y hy).2⟩
    · simp only [List.mem_singleton] at hy
      subst hy
      exact ⟨h0, key _ hg⟩

/-- Creating works exactly if the file is writable and there is nothing yet. -/
theorem create_new {f : File τ σ ν} (hw : f.writable = true) {loc : Path} (hg : groupAt f loc = true) {n : Str} (hn : objectAt f (loc ++ [n]) = none) (x : Node τ σ ν) :
    create f (loc ++ [n]) x = .ok (⟨f.writable, f.objects ++ [(loc ++ [n], x)]⟩, loc ++ [n]) := by
  unfold create
  rw [if_pos]
  simp [hw, hg, hn]

/-- A file with a group `a`, and in it a dataset `x`. -/
def sample : File Nat Nat Nat := ⟨true, [([['a']], .group), ([['a'], ['x']], .data ⟨1, 2, none, some 7⟩)]⟩

theorem sample_sound : Sound sample := ⟨by decide, by intro x hx; simp [sample] at hx; rcases hx with rfl | rfl <;> exact ⟨by simp, by decide⟩⟩

theorem plain_a : Plain ['a'] := by unfold Plain; decide
theorem plain_x : Plain ['x'] := by unfold Plain; decide

/-- **C138.** What `contains` says about a name of one component in a group: whether there is a group, or a dataset, of this name. -/
theorem contains_spec {f : File τ σ ν} {loc : Path} (hg : groupAt f loc = true) {n : Str} (hp : Plain n) :
    contains f loc n .group = .ok (groupAt f (loc ++ [n])) ∧
    (∃ b, contains f loc n .dataset = .ok b ∧ (b = true ↔ ∃ d, objectAt f (loc ++ [n]) = some (.data d))) ∧
    contains f loc n .file = .ok false := by
  unfold contains lexists
  rw [target_plain loc hp, if_neg (not_root loc n), List.dropLast_concat, if_pos hg, groupAt]
  cases h : objectAt f (loc ++ [n]) with
  | none => simp
  | some x => cases x <;> simp [Node.isGroup]

example : groupAt sample [['a']] = true ∧ Plain ['x'] ∧ contains sample [['a']] ['x'] .group = .ok false := ⟨by decide, plain_x, by decide⟩

theorem splitOn_two {a b : Str} (ha : '/' ∉ a) (hb : '/' ∉ b) : (a ++ '/' :: b).splitOn '/' = [a, b] := by
  have h := List.splitOn_intercalate (ls := [a, b]) '/' (by intro l hl; simp at hl; rcases hl with rfl | rfl <;> assumption) (by simp)
  simpa [List.intercalate] using h

theorem target_two (loc : Path) {a b : Str} (ha : Plain a) (hb : Plain b) : target loc (a ++ '/' :: b) = loc ++ [a, b] := by
  have hz : Char.ofNat 0 ∉ a ++ '/' :: b := by
    intro h
    rcases List.mem_append.1 h with h | h
    · exact ha.2.2.2 h
    · rcases List.mem_cons.1 h with h | h
      · exact absurd h (by decide)
      · exact hb.2.2.2 h
  unfold target components
  rw [cstr_plain hz, splitOn_two ha.2.2.1 hb.2.2.1, if_neg]
  · simp [ha.1, ha.2.1, hb.1, hb.2.1]
  · cases a with
    | nil => exact absurd rfl ha.1
    | cons c a =>
      simp only [List.cons_append, List.head?_cons, Option.some.injEq]
      rintro rfl
      exact ha.2.2.1 (by simp)

/-- **C138, violated.** A name of two components, the first of which is no group: `contains` reads a variable without a value, and so does `require_group`, instead of
saying no or failing. -/
theorem contains_violated (f : File τ σ ν) {loc : Path} {a b : Str} (ha : Plain a) (hb : Plain b) (h : groupAt f (loc ++ [a]) = false)
    (hn : objectAt f (loc ++ [a, b]) = none) :
    contains f loc (a ++ '/' :: b) .group = .ub ∧ contains f loc (a ++ '/' :: b) .dataset = .ub ∧ requireGroup f loc (a ++ '/' :: b) = .ub := by
  have e : loc ++ [a, b] = (loc ++ [a]) ++ [b] := by simp
  have hL : lexists f (loc ++ [a, b]) = -1 := by
    unfold lexists
    rw [e, if_neg (not_root _ _), List.dropLast_concat, h]
    rfl
  have h1 : contains f loc (a ++ '/' :: b) .group = .ub := by
    unfold contains
    rw [target_two loc ha hb, hn, hL, if_pos (by decide)]
  have h2 : contains f loc (a ++ '/' :: b) .dataset = .ub := by
    unfold contains
    rw [target_two loc ha hb, hn, hL, if_pos (by decide)]
  refine ⟨h1, h2, ?_⟩
  unfold requireGroup
  rw [if_neg, h1]
  · rfl
  · intro e
    have := congrArg List.length e
    have ha' := List.length_pos_iff.2 ha.1
    simp at this
    omega

example : Plain ['x'] ∧ Plain ['a'] ∧ groupAt sample ([] ++ [['x']]) = false ∧ objectAt sample ([] ++ [['x'], ['a']]) = none := ⟨plain_x, plain_a, by decide, rfl⟩

/-- **C138.** `require_group`: the group is there afterwards, with what it had; nothing else changes, and nothing at all if it was there. -/
theorem requireGroup_spec {f : File τ σ ν} (hs : Sound f) (hw : f.writable = true) {loc : Path} (hg : groupAt f loc = true) {n : Str} (hp : Plain n)
    (hd : ∀ d, objectAt f (loc ++ [n]) ≠ some (.data d)) :
    ∃ f', requireGroup f loc n = .ok (f', loc ++ [n]) ∧ Sound f' ∧ f'.writable = true ∧ groupAt f' (loc ++ [n]) = true ∧
      (∀ q, q ≠ loc ++ [n] → objectAt f' q = objectAt f q) ∧ (groupAt f (loc ++ [n]) = true → f' = f) := by
  have hr : n ≠ ['/'] := by rintro rfl; exact hp.2.2.1 (by simp)
  unfold requireGroup createGroup openGroup
  rw [if_neg hr, (contains_spec hg hp).1, Outcome.bind_ok, target_plain loc hp]
  cases h : objectAt f (loc ++ [n]) with
  | none =>
    have h' : groupAt f (loc ++ [n]) = false := by rw [groupAt, h]; rfl
    refine ⟨_, by rw [h', if_neg (by simp), create_new hw hg h], sound_create hs (not_root _ _) (by rwa [List.dropLast_concat]) h, hw, ?_, fun q hq => objectAt_append hq, ?_⟩
    · rw [groupAt, objectAt_new (not_root _ _) h]; rfl
    · rw [h']; intro e; cases e
  | some x =>
    cases x with
    | data d => exact absurd h (hd d)
    | group =>
      have h' : groupAt f (loc ++ [n]) = true := by rw [groupAt, h]; rfl
      exact ⟨f, by rw [h', if_pos rfl, if_pos rfl]; rfl, hs, hw, h', fun _ _ => rfl, fun _ => rfl⟩

example : Sound sample ∧ sample.writable = true ∧ groupAt sample [['a']] = true ∧ Plain ['a'] ∧ ∀ d, objectAt sample ([['a']] ++ [['a']]) ≠ some (.data d) :=
  ⟨sample_sound, rfl, by decide, plain_a, fun d h => by cases h⟩

/-- **C138.** `require_group` with the name of a dataset fails. -/
theorem requireGroup_dataset {f : File τ σ ν} {loc : Path} (hg : groupAt f loc = true) {n : Str} (hp : Plain n) {d : Data τ σ ν}
    (hd : objectAt f (loc ++ [n]) = some (.data d)) : requireGroup f loc n = .throws .invalidArgument := by
  have hr : n ≠ ['/'] := by rintro rfl; exact hp.2.2.1 (by simp)
  have h' : groupAt f (loc ++ [n]) = false := by rw [groupAt, hd]; rfl
  unfold requireGroup createGroup create
  rw [if_neg hr, (contains_spec hg hp).1, Outcome.bind_ok, target_plain loc hp, h', if_neg (by simp), if_neg]
  simp [hd]

example : groupAt sample [['a']] = true ∧ Plain ['x'] ∧ ∃ d, objectAt sample ([['a']] ++ [['x']]) = some (.data d) := ⟨by decide, plain_x, _, rfl⟩

section
variable [DecidableEq τ] [DecidableEq σ]

theorem requireDataset_new {f : File τ σ ν} (hw : f.writable = true) {loc : Path} (hg : groupAt f loc = true) {n : Str} (hp : Plain n)
    (hn : objectAt f (loc ++ [n]) = none) (t : τ) (s : σ) (c : Option (List Nat)) :
    requireDataset f loc n t s c = .ok (⟨f.writable, f.objects ++ [(loc ++ [n], .data ⟨t, s, c, none⟩)]⟩, loc ++ [n]) := by
  obtain ⟨b, hb, hb'⟩ := (contains_spec hg hp).2.1
  have : b = false := by
    rw [← Bool.not_eq_true, hb']
    rintro ⟨d, hd⟩
    rw [hn] at hd; cases hd
  subst this
  unfold requireDataset
  rw [hb, Outcome.bind_ok, if_neg (by simp), target_plain loc hp, create_new hw hg hn]

theorem requireDataset_old {f : File τ σ ν} {loc : Path} (hg : groupAt f loc = true) {n : Str} (hp : Plain n) {d : Data τ σ ν}
    (hn : objectAt f (loc ++ [n]) = some (.data d)) (t : τ) (s : σ) (c : Option (List Nat)) :
    requireDataset f loc n t s c = if d.type = t ∧ d.space = s ∧ d.chunk = none then .ok (f, loc ++ [n]) else .throws .invalidArgument := by
  obtain ⟨b, hb, hb'⟩ := (contains_spec hg hp).2.1
  have : b = true := hb'.2 ⟨d, hn⟩
  subst this
  unfold requireDataset openDataset
  rw [hb, Outcome.bind_ok, if_pos rfl, target_plain loc hp, hn]
  rfl

omit [DecidableEq τ] [DecidableEq σ] in
theorem objectAt_put {f : File τ σ ν} {w : Bool} {p : Path} {v : ν} (q : Path) :
    objectAt ⟨w, f.objects.map fun x => if x.1 = p then (x.1, putValue v x.2) else x⟩ q =
      if q = p then (objectAt f q).map (putValue v) else objectAt f q := by
  by_cases h0 : q = []
  · subst h0
    by_cases hp : [] = p <;> simp [objectAt, hp, putValue]
  rw [objectAt_ne h0, objectAt_ne h0]
  dsimp only
  induction f.objects with
  | nil => simp
  | cons x l ih =>
    rw [List.map_cons]
    by_cases hx : x.1 = q
    · by_cases hq : q = p
      · simp [List.find?_cons, hx, hq]
      · have : ¬ x.1 = p := by rw [hx]; exact hq
        simp [List.find?_cons, hx, hq, this]
    · by_cases hxp : x.1 = p
      · have : ¬ p = q := by rw [← hxp]; exact hx
        have e : (if x.1 = p then (x.1, putValue v x.2) else x) = (x.1, putValue v x.2) := if_pos hxp
        rw [e, List.find?_cons_of_neg (by simpa using hx), List.find?_cons_of_neg (by simpa using hx)]
        exact ih
      · rw [if_neg hxp, List.find?_cons_of_neg (by simpa using hx), List.find?_cons_of_neg (by simpa using hx)]
        exact ih

omit [DecidableEq τ] [DecidableEq σ] in
theorem isGroup_put (v : ν) (x : Node τ σ ν) : (putValue v x).isGroup = x.isGroup := by cases x <;> rfl

omit [DecidableEq τ] [DecidableEq σ] in
theorem groupAt_put {f : File τ σ ν} {w : Bool} {p : Path} {v : ν} (q : Path) :
    groupAt ⟨w, f.objects.map fun x => if x.1 = p then (x.1, putValue v x.2) else x⟩ q = groupAt f q := by
  unfold groupAt
  rw [objectAt_put]
  split
  · cases objectAt f q with
    | none => rfl
    | some x => simp [isGroup_put]
  · rfl

omit [DecidableEq τ] [DecidableEq σ] in
theorem sound_put {f : File τ σ ν} (hs : Sound f) {w : Bool} {p : Path} {v : ν} :
    Sound ⟨w, f.objects.map fun x => if x.1 = p then (x.1, putValue v x.2) else x⟩ := by
  constructor
  · dsimp only
    rw [List.map_map]
    have : ((fun x : Path × Node τ σ ν => x.1) ∘ fun x => if x.1 = p then (x.1, putValue v x.2) else x) = fun x => x.1 := by
      funext x
      by_cases h : x.1 = p <;> simp [h]
    rw [this]
    exact hs.once
  · intro y hy
    obtain ⟨x, hx, rfl⟩ := List.mem_map.1 hy
    have e : (if x.1 = p then (x.1, putValue v x.2) else x).1 = x.1 := by split <;> rfl
    rw [e]
    exact ⟨(hs.inside x hx).1, by rw [groupAt_put]; exact (hs.inside x hx).2⟩

/-- **C138.** What is written under a name that is new, or that of a dataset of the same type and data space (without chunks), is read back; nothing else changes. -/
theorem write_read {f : File τ σ ν} (hs : Sound f) (hw : f.writable = true) {loc : Path} (hg : groupAt f loc = true) {n : Str} (hp : Plain n) (t : τ) (s : σ) (v : ν)
    (h : ∀ x, objectAt f (loc ++ [n]) = some x → ∃ old, x = .data ⟨t, s, none, old⟩) :
    ∃ f', write f loc n t s v = .ok f' ∧ Sound f' ∧ f'.writable = true ∧ read f' loc n t = .ok (some v) ∧
      ∀ q, q ≠ loc ++ [n] → objectAt f' q = objectAt f q := by
  have fin : ∀ g : File τ σ ν, Sound g → g.writable = true → requireDataset f loc n t s none = .ok (g, loc ++ [n]) →
      (∃ old, objectAt g (loc ++ [n]) = some (.data ⟨t, s, none, old⟩)) → (∀ q, q ≠ loc ++ [n] → objectAt g q = objectAt f q) →
      ∃ f', write f loc n t s v = .ok f' ∧ Sound f' ∧ f'.writable = true ∧ read f' loc n t = .ok (some v) ∧
      ∀ q, q ≠ loc ++ [n] → objectAt f' q = objectAt f q := by
    rintro g hs' hw' hr ⟨old, ho⟩ hq
    refine ⟨_, by unfold write writeValue; rw [hr, Outcome.bind_ok, if_pos hw'], sound_put hs', hw', ?_, ?_⟩
    · unfold read openDataset
      rw [target_plain loc hp, objectAt_put, if_pos rfl, ho]
      simp [putValue, Outcome.bind]
    · intro q h1
      rw [objectAt_put, if_neg h1, hq q h1]
  cases hn : objectAt f (loc ++ [n]) with
  | none =>
    exact fin _ (sound_create hs (not_root _ _) (by rwa [List.dropLast_concat]) hn) hw (requireDataset_new hw hg hp hn t s none)
      ⟨none, objectAt_new (not_root _ _) hn⟩ fun q hq => objectAt_append hq
  | some x =>
    obtain ⟨old, rfl⟩ := h x hn
    exact fin f hs hw (by rw [requireDataset_old hg hp hn]; simp) ⟨old, hn⟩ fun _ _ => rfl

example : Sound sample ∧ sample.writable = true ∧ groupAt sample [['a']] = true ∧ Plain ['x'] ∧
    ∀ x, objectAt sample ([['a']] ++ [['x']]) = some x → ∃ old, x = .data ⟨1, 2, none, old⟩ :=
  ⟨sample_sound, rfl, by decide, plain_x, fun x h => ⟨some 7, by cases h; rfl⟩⟩

/-- **C138.** Writing under the name of a group, or of a dataset of another type or data space, fails. -/
theorem write_refused {f : File τ σ ν} {loc : Path} (hg : groupAt f loc = true) {n : Str} (hp : Plain n) (t : τ) (s : σ) (v : ν)
    {x : Node τ σ ν} (hx : objectAt f (loc ++ [n]) = some x) (h : ∀ old, x ≠ .data ⟨t, s, none, old⟩) :
    write f loc n t s v = .throws .invalidArgument := by
  unfold write
  cases x with
  | data d =>
    rw [requireDataset_old hg hp hx, if_neg]
    · rfl
    · rintro ⟨rfl, rfl, h3⟩
      obtain ⟨a, b, c, o⟩ := d
      dsimp only at h3
      subst h3
      exact h o rfl
  | group =>
    obtain ⟨b, hb, hb'⟩ := (contains_spec hg hp).2.1
    have : b = false := by
      rw [← Bool.not_eq_true, hb']
      rintro ⟨d, hd⟩
      rw [hx] at hd; cases hd
    subst this
    unfold requireDataset create
    rw [hb, Outcome.bind_ok, if_neg (by simp), target_plain loc hp, if_neg (by simp [hx])]
    rfl

example : groupAt sample [] = true ∧ Plain ['a'] ∧ objectAt sample ([] ++ [['a']]) = some .group ∧ ∀ old, (.group : Node Nat Nat Nat) ≠ .data ⟨1, 2, none, old⟩ :=
  ⟨by decide, plain_a, rfl, fun _ h => by cases h⟩

/-- **C138, partial.** A dataset without chunks that was required is given again when it is required again, and the file stays as it is. -/
theorem requireDataset_again_partial {f : File τ σ ν} (hw : f.writable = true) {loc : Path} (hg : groupAt f loc = true) {n : Str} (hp : Plain n)
    (hn : objectAt f (loc ++ [n]) = none) (t : τ) (s : σ) :
    ∃ f', requireDataset f loc n t s none = .ok (f', loc ++ [n]) ∧ requireDataset f' loc n t s none = .ok (f', loc ++ [n]) := by
  refine ⟨_, requireDataset_new hw hg hp hn t s none, ?_⟩
  have hl : loc ≠ loc ++ [n] := by intro e; simpa using congrArg List.length e
  rw [requireDataset_old (d := ⟨t, s, none, none⟩) (by rwa [groupAt, objectAt_append hl]) hp (objectAt_new (not_root _ _) hn), if_pos ⟨rfl, rfl, rfl⟩]

example : sample.writable = true ∧ groupAt sample [['a']] = true ∧ Plain ['a'] ∧ objectAt sample ([['a']] ++ [['a']]) = none := ⟨rfl, by decide, plain_a, rfl⟩

/-- **C138, violated.** A dataset with chunks is not given again, though type, data space and properties are the same: the properties of the file are compared with the default
ones instead of those asked for. -/
theorem requireDataset_again_violated {f : File τ σ ν} (hw : f.writable = true) {loc : Path} (hg : groupAt f loc = true) {n : Str} (hp : Plain n)
    (hn : objectAt f (loc ++ [n]) = none) (t : τ) (s : σ) (c : List Nat) :
    ∃ f', requireDataset f loc n t s (some c) = .ok (f', loc ++ [n]) ∧ requireDataset f' loc n t s (some c) = .throws .invalidArgument ∧
      requireDataset f' loc n t s none = .throws .invalidArgument := by
  refine ⟨_, requireDataset_new hw hg hp hn t s (some c), ?_⟩
  have hl : loc ≠ loc ++ [n] := by intro e; simpa using congrArg List.length e
  have := fun c' => requireDataset_old (f := ⟨f.writable, f.objects ++ [(loc ++ [n], .data ⟨t, s, some c, none⟩)]⟩) (d := ⟨t, s, some c, none⟩)
    (by rwa [groupAt, objectAt_append hl]) hp (objectAt_new (not_root _ _) hn) t s c'
  rw [this, this]
  simp

example : sample.writable = true ∧ groupAt sample [['a']] = true ∧ Plain ['a'] ∧ objectAt sample ([['a']] ++ [['a']]) = none := ⟨rfl, by decide, plain_a, rfl⟩

/-- **C138.** A file that was opened for reading is not changed, by any name. -/
theorem readonly {f : File τ σ ν} (hw : f.writable = false) (loc : Path) (n : Str) (t : τ) (s : σ) (c : Option (List Nat)) (v : ν) :
    (∀ f' p, requireGroup f loc n = .ok (f', p) → f' = f) ∧ (∀ f' p, requireDataset f loc n t s c = .ok (f', p) → f' = f) ∧
    ∀ f', write f loc n t s v ≠ .ok f' := by
  have hc : ∀ p x y, create f p x ≠ .ok y := by
    intro p x y
    unfold create
    rw [if_neg (by simp [hw])]
    exact fun h => by cases h
  have hd : ∀ c f' p, requireDataset f loc n t s c = .ok (f', p) → f' = f := by
    intro c f' p h
    unfold requireDataset at h
    rw [Outcome.bind_eq_ok] at h
    obtain ⟨b, -, h⟩ := h
    split at h
    · rw [Outcome.bind_eq_ok] at h
      obtain ⟨d, -, h⟩ := h
      split at h
      · cases h; rfl
      · cases h
    · exact absurd h (hc _ _ _)
  refine ⟨?_, hd c, ?_⟩
  · intro f' p h
    unfold requireGroup createGroup at h
    split at h
    · rw [Outcome.map_eq_ok] at h
      obtain ⟨d, -, h⟩ := h
      cases h; rfl
    · rw [Outcome.bind_eq_ok] at h
      obtain ⟨b, -, h⟩ := h
      split at h
      · rw [Outcome.map_eq_ok] at h
        obtain ⟨d, -, h⟩ := h
        cases h; rfl
      · exact absurd h (hc _ _ _)
  · intro f' h
    unfold write at h
    rw [Outcome.bind_eq_ok] at h
    obtain ⟨x, h1, h⟩ := h
    have := hd none x.1 x.2 h1
    unfold writeValue at h
    rw [this, hw, if_neg (by simp)] at h
    cases h

example : ({ sample with writable := false } : File Nat Nat Nat).writable = false := rfl

/-- **C138.** Writing to a file that was opened for reading throws. -/
theorem readonly_throws {f : File τ σ ν} (hw : f.writable = false) {loc : Path} (hg : groupAt f loc = true) {n : Str} (hp : Plain n) (t : τ) (s : σ) (v : ν) :
    write f loc n t s v = .throws .invalidArgument := by
  cases hx : objectAt f (loc ++ [n]) with
  | none =>
    obtain ⟨b, hb, hb'⟩ := (contains_spec hg hp).2.1
    have : b = false := by
      rw [← Bool.not_eq_true, hb']
      rintro ⟨d, hd⟩
      rw [hx] at hd; cases hd
    subst this
    unfold write requireDataset create
    rw [hb, Outcome.bind_ok, if_neg (by simp), if_neg (by simp [hw])]
    rfl
  | some x =>
    by_cases h : ∀ old, x ≠ .data ⟨t, s, none, old⟩
    · exact write_refused hg hp t s v hx h
    · push Not at h
      obtain ⟨old, rfl⟩ := h
      unfold write
      rw [requireDataset_old hg hp hx, if_pos ⟨rfl, rfl, rfl⟩, Outcome.bind_ok]
      unfold writeValue
      rw [if_neg (by simp [hw])]

example : groupAt ({ sample with writable := false } : File Nat Nat Nat) [['a']] = true := by decide

omit [DecidableEq σ] in
/-- **C138.** What is not there is not opened or read: an exception is thrown; so it is if a dataset is read as another type. -/
theorem absent_throws (f : File τ σ ν) (loc : Path) {n : Str} (hp : Plain n) (t : τ) :
    (openGroup f loc n = .ok (loc ++ [n]) ∧ objectAt f (loc ++ [n]) = some .group ∨ openGroup f loc n = .throws .invalidArgument ∧ objectAt f (loc ++ [n]) ≠ some .group) ∧
    ((∀ d, objectAt f (loc ++ [n]) = some (.data d) → d.type ≠ t) → read f loc n t = .throws .invalidArgument) ∧
    ∀ d, objectAt f (loc ++ [n]) = some (.data d) → d.type = t → read f loc n t = .ok d.value := by
  unfold openGroup read openDataset groupAt
  rw [target_plain loc hp]
  cases hx : objectAt f (loc ++ [n]) with
  | none => simp [Outcome.bind]
  | some x =>
    cases x with
    | group => simp [Node.isGroup, Outcome.bind]
    | data d => simp [Node.isGroup, Outcome.bind]

example : openGroup sample [] ['a'] = .ok [['a']] ∧ read sample [] ['a'] 1 = .throws .invalidArgument ∧ read sample [['a']] ['x'] 1 = .ok (some 7) ∧
    read sample [['a']] ['x'] 2 = .throws .invalidArgument := ⟨by decide, rfl, rfl, rfl⟩

end

theorem mem_members {f : File τ σ ν} {p : Path} {n : Str} : n ∈ members f p ↔ (objectAt f (p ++ [n])).isSome = true := by
  have e : n ∈ members f p ↔ p ++ [n] ∈ f.objects.map (·.1) := by
    unfold members
    rw [List.mem_filterMap, List.mem_map]
    constructor
    · rintro ⟨⟨q, k⟩, hx, h⟩
      rw [Option.bind_eq_some_iff] at h
      obtain ⟨n', hn, h⟩ := h
      dsimp only at hn h
      split at h
      · rename_i hq
        cases h
        refine ⟨_, hx, ?_⟩
        rw [← hq, List.dropLast_append_getLast? _ hn]
      · cases h
    · rintro ⟨x, hx, he⟩
      exact ⟨x, hx, by rw [he]; simp⟩
  rw [e, ← not_iff_not, ← objectAt_none (not_root p n)]
  cases objectAt f (p ++ [n]) <;> simp

theorem Sound.members_nodup {f : File τ σ ν} (hs : Sound f) (p : Path) : (members f p).Nodup := by
  have e : members f p = (f.objects.map (·.1)).filterMap fun q => q.getLast?.bind fun n => if q.dropLast = p then some n else none := by
    unfold members
    rw [List.filterMap_map]
    rfl
  rw [e]
  refine hs.once.filterMap ?_
  intro a b n ha hb
  rw [Option.mem_def, Option.bind_eq_some_iff] at ha hb
  obtain ⟨n1, h1, ha⟩ := ha
  obtain ⟨n2, h2, hb⟩ := hb
  split at ha <;> [skip; cases ha]
  split at hb <;> [skip; cases hb]
  cases ha; cases hb
  rename_i ea eb
  rw [← List.dropLast_append_getLast? _ h1, ← List.dropLast_append_getLast? _ h2, ea, eb]

theorem visit_short (names : List Str) (h : ∀ n ∈ names, n.length < 1024) : ∀ k i, i + k ≤ names.length → visit names k i = .ok ((names.drop i).take k)
  | 0, i, _ => by simp [visit]
  | k + 1, i, hk => by
    have hi : i < names.length := by omega
    have hl := h _ (List.getElem_mem hi)
    unfold visit nameAt
    rw [List.getElem?_eq_getElem hi, visit_short names h k (i + 1) (by omega), List.drop_eq_getElem_cons hi]
    dsimp only
    rw [if_neg (by omega), List.take_of_length_le (by omega), List.take_succ_cons]
    rfl

/-- **C138, partial.** The loop over a group visits every name in the group, and no other, once, in some order, if all names have less than 1024 characters; `size` is
the number of rounds. -/
theorem iterate_partial {f : File τ σ ν} (hs : Sound f) (loc : Path) {order : List Str → List Str} (ho : ∀ l, (order l).Perm l)
    (h : ∀ n, (objectAt f (loc ++ [n])).isSome = true → n.length < 1024) :
    ∃ l, iterate order f loc = .ok l ∧ l.Nodup ∧ l.length = size f loc ∧ ∀ n, n ∈ l ↔ (objectAt f (loc ++ [n])).isSome = true := by
  have hp := ho (members f loc)
  refine ⟨order (members f loc), ?_, hp.nodup_iff.2 (hs.members_nodup loc), hp.length_eq, fun n => by rw [hp.mem_iff, mem_members]⟩
  unfold iterate
  rw [visit_short _ (fun n hn => h n (mem_members.1 (hp.mem_iff.1 hn))) _ _ (by rw [hp.length_eq]; simp [size])]
  rw [List.drop_zero, List.take_of_length_le]
  rw [hp.length_eq]
  exact Nat.le_refl _

example : Sound sample ∧ (∀ l : List Str, l.reverse.Perm l) ∧ iterate List.reverse sample [['a']] = .ok [['x']] ∧
    ∀ n, (objectAt sample ([['a']] ++ [n])).isSome = true → n.length < 1024 := by
  refine ⟨sample_sound, List.reverse_perm, by decide, fun n h => ?_⟩
  have : n ∈ members sample [['a']] := mem_members.2 h
  have e : members sample [['a']] = [['x']] := by decide
  rw [e, List.mem_singleton] at this
  rw [this]
  decide

/-- **C138, violated.** A name of exactly 1024 characters is visited without its last character, and nothing of this name is in the group. -/
theorem iterate_violated {f : File τ σ ν} {order : List Str → List Str} (ho : ∀ l, (order l).Perm l) {n : Str} (hn : n.length = 1024) {loc : Path}
    (h : members f loc = [n]) : iterate order f loc = .ok [n.take 1023] ∧ objectAt f (loc ++ [n.take 1023]) = none := by
  have e : order [n] = [n] := List.perm_singleton.1 (ho [n])
  constructor
  · unfold iterate size
    rw [h, e]
    simp [visit, nameAt, hn, Outcome.bind, Outcome.map]
  · cases hx : objectAt f (loc ++ [n.take 1023]) with
    | none => rfl
    | some x =>
      have : n.take 1023 ∈ members f loc := mem_members.2 (by rw [hx]; rfl)
      rw [h, List.mem_singleton] at this
      have := congrArg List.length this
      simp [hn] at this

example : (List.replicate 1024 'a').length = 1024 ∧
    members (⟨true, [([List.replicate 1024 'a'], .group)]⟩ : File Nat Nat Nat) [] = [List.replicate 1024 'a'] := ⟨List.length_replicate, rfl⟩

theorem visit_long (names : List Str) : ∀ k i, i + k = names.length → (∃ n ∈ names.drop i, 1024 < n.length) → visit names k i = .throws .other
  | 0, i, h, ⟨n, hn, _⟩ => by rw [List.drop_of_length_le (by omega)] at hn; cases hn
  | k + 1, i, h, ⟨n, hn, hl⟩ => by
    have hi : i < names.length := by omega
    rw [List.drop_eq_getElem_cons hi] at hn
    unfold visit nameAt
    rw [List.getElem?_eq_getElem hi]
    dsimp only
    by_cases hx : names[i].length > 1024
    · rw [if_pos hx]; rfl
    · rw [if_neg hx, Outcome.bind_ok, visit_long names k (i + 1) (by omega)]
      · rfl
      · rcases List.mem_cons.1 hn with rfl | hn
        · exact absurd hl hx
        · exact ⟨n, hn, hl⟩

/-- C138: with a name of more than 1024 characters in the group the loop ends in an exception, whatever the order. -/
theorem iterate_long {f : File τ σ ν} {order : List Str → List Str} (ho : ∀ l, (order l).Perm l) {loc : Path} {n : Str} (hn : 1024 < n.length)
    (h : (objectAt f (loc ++ [n])).isSome = true) : iterate order f loc = .throws .other := by
  have hp := ho (members f loc)
  exact visit_long _ _ _ (by rw [hp.length_eq, Nat.zero_add]; rfl) ⟨n, by rw [List.drop_zero]; exact hp.mem_iff.2 (mem_members.2 h), hn⟩

example : 1024 < (List.replicate 1025 'a').length ∧ (objectAt (⟨true, [([['b']], .group), ([List.replicate 1025 'a'], .group)]⟩ : File Nat Nat Nat) ([] ++ [List.replicate 1025 'a'])).isSome = true := by
  refine ⟨by rw [List.length_replicate]; decide, mem_members.1 ?_⟩
  exact List.mem_cons_of_mem ['b'] (List.mem_singleton.2 rfl)

theorem splitOn_three {a b c : Str} (ha : '/' ∉ a) (hb : '/' ∉ b) (hc : '/' ∉ c) : (a ++ '/' :: (b ++ '/' :: c)).splitOn '/' = [a, b, c] := by
  have h := List.splitOn_intercalate (ls := [a, b, c]) '/' (by intro l hl; simp at hl; rcases hl with rfl | rfl | rfl <;> assumption) (by simp)
  simpa [List.intercalate] using h

theorem zero_two {a b : Str} (ha : Char.ofNat 0 ∉ a) (hb : Char.ofNat 0 ∉ b) : Char.ofNat 0 ∉ a ++ '/' :: b := by
  intro h
  rcases List.mem_append.1 h with h | h
  · exact ha h
  · rcases List.mem_cons.1 h with h | h
    · exact absurd h (by decide)
    · exact hb h

theorem head_plain {a r : Str} (ha : Plain a) : (a ++ r).head? ≠ some '/' := by
  cases a with
  | nil => exact absurd rfl ha.1
  | cons c a =>
    simp only [List.cons_append, List.head?_cons, ne_eq, Option.some.injEq]
    rintro rfl
    exact ha.2.2.1 (by simp)

/-- **C138.** Names that mean the same: slashes at the end or twice, `.` in between or in front; a slash in front means the root. -/
theorem same_group (f : File τ σ ν) (loc : Path) {a b : Str} (ha : Plain a) (hb : Plain b) :
    openGroup f loc (a ++ ['/']) = openGroup f loc a ∧
    openGroup f loc (a ++ '/' :: '/' :: b) = openGroup f loc (a ++ '/' :: b) ∧
    openGroup f loc (a ++ '/' :: '.' :: '/' :: b) = openGroup f loc (a ++ '/' :: b) ∧
    openGroup f loc ('.' :: '/' :: b) = openGroup f loc b ∧
    openGroup f loc ('/' :: b) = openGroup f [] b := by
  have zd : Char.ofNat 0 ∉ ['.'] := by decide
  have sd : '/' ∉ ['.'] := by decide
  have t : ∀ x y l m, target l x = target m y → openGroup f l x = openGroup f m y := by
    intro x y l m h
    unfold openGroup
    rw [h]
  refine ⟨t _ _ _ _ ?_, t _ _ _ _ ?_, t _ _ _ _ ?_, t _ _ _ _ ?_, t _ _ _ _ ?_⟩
  · rw [target_plain loc ha]
    unfold target components
    rw [cstr_plain (zero_two ha.2.2.2 (by simp)), splitOn_two ha.2.2.1 (by simp), if_neg (head_plain ha)]
    simp [ha.1, ha.2.1]
  · rw [target_two loc ha hb]
    have e : a ++ '/' :: '/' :: b = a ++ '/' :: ([] ++ '/' :: b) := rfl
    rw [e]
    unfold target components
    rw [cstr_plain (zero_two ha.2.2.2 (zero_two (by simp) hb.2.2.2)), splitOn_three ha.2.2.1 (by simp) hb.2.2.1, if_neg (head_plain ha)]
    simp [ha.1, ha.2.1, hb.1, hb.2.1]
  · rw [target_two loc ha hb]
    have e : a ++ '/' :: '.' :: '/' :: b = a ++ '/' :: (['.'] ++ '/' :: b) := rfl
    rw [e]
    unfold target components
    rw [cstr_plain (zero_two ha.2.2.2 (zero_two zd hb.2.2.2)), splitOn_three ha.2.2.1 sd hb.2.2.1, if_neg (head_plain ha)]
    simp [ha.1, ha.2.1, hb.1, hb.2.1]
  · rw [target_plain loc hb]
    have e : '.' :: '/' :: b = ['.'] ++ '/' :: b := rfl
    rw [e]
    unfold target components
    rw [cstr_plain (zero_two zd hb.2.2.2), splitOn_two sd hb.2.2.1, if_neg (by simp)]
    simp [hb.1, hb.2.1]
  · rw [target_plain [] hb]
    have e : '/' :: b = [] ++ '/' :: b := rfl
    rw [e]
    unfold target components
    rw [cstr_plain (zero_two (by simp) hb.2.2.2), splitOn_two (by simp) hb.2.2.1, if_pos (by simp)]
    simp [hb.1, hb.2.1]

example : openGroup sample [['b']] ['/', 'a', '/'] = .ok [['a']] := by decide

/-- **C138.** Opening files: "w" gives an empty file whatever there was, "r" and "r+" give what there is, or fail; no other file changes; other modes are refused. -/
theorem openFile_spec (disk : Disk τ σ ν) (name : Str) :
    (∃ d, openFile disk name ['w'] = .ok (d, ⟨true, []⟩) ∧ d name = some [] ∧ ∀ n, n ≠ name → d n = disk n) ∧
    (∀ o, disk name = some o → openFile disk name ['r'] = .ok (disk, ⟨false, o⟩) ∧ openFile disk name ['r', '+'] = .ok (disk, ⟨true, o⟩)) ∧
    (disk name = none → openFile disk name ['r'] = .throws .invalidArgument ∧ openFile disk name ['r', '+'] = .throws .invalidArgument) ∧
    ∀ mode, mode ≠ ['r'] → mode ≠ ['r', '+'] → mode ≠ ['w'] → openFile disk name mode = .throws .invalidArgument := by
  refine ⟨⟨_, rfl, by simp, fun n hn => by simp [hn]⟩, fun o ho => ?_, fun ho => ?_, fun mode h1 h2 h3 => ?_⟩
  · simp [openFile, ho]
  · simp [openFile, ho]
  · simp [openFile, h1, h2, h3]

example : openFile (fun n => if n = ['f'] then some sample.objects else none) ['f'] ['r'] = .ok (fun n => if n = ['f'] then some sample.objects else none, ⟨false, sample.objects⟩) := rfl

/-- **C138.** The name of a file: that it was opened with, below 2048 characters; with 2048 characters the last one is missing. -/
theorem filename_spec (name : Str) : (name.length < 2048 → filename name = .ok name) ∧ (2048 < name.length → filename name = .throws .invalidArgument) ∧
    (name.length = 2048 → ∃ s, filename name = .ok s ∧ s ≠ name) := by
  refine ⟨fun h => ?_, fun h => ?_, fun h => ⟨name.take 2047, ?_, fun e => ?_⟩⟩
  · unfold filename; rw [if_neg (by omega), List.take_of_length_le (by omega)]
  · unfold filename; rw [if_pos h]
  · unfold filename; rw [if_neg (by omega)]
  · have := congrArg List.length e
    simp [h] at this

example : filename ['a', '.', 'h', '5'] = .ok ['a', '.', 'h', '5'] := rfl

end Verif.Groups
