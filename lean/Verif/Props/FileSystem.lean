import Verif.Spec.FileSystem
import Mathlib.Data.List.Infix
import Mathlib.Data.List.Nodup
import Mathlib.Tactic.Set

/-!
# C137: files and directories
-/

namespace Verif.Files
open Verif Verif.Text

theorem kindAt_ne {fs : FS} {p : Path} (h : p ≠ []) : kindAt fs p = (fs.find? fun x => decide (x.1 = p)).map (·.2) := if_neg h

theorem kindAt_mem {fs : FS} {p : Path} {k : Kind} (h0 : p ≠ []) (h : kindAt fs p = some k) : (p, k) ∈ fs := by
  rw [kindAt_ne h0, Option.map_eq_some_iff] at h
  obtain ⟨⟨q, k'⟩, h1, rfl⟩ := h
  have h2 := List.find?_some h1
  simp only [decide_eq_true_eq] at h2
  subst h2
  exact List.mem_of_find?_eq_some h1

theorem kindAt_of_mem {fs : FS} {x : Path × Kind} (h0 : x.1 ≠ []) (h : x ∈ fs) : ∃ k, kindAt fs x.1 = some k := by
  rw [kindAt_ne h0]
  cases hf : fs.find? (fun y => decide (y.1 = x.1)) with
  | none =>
    have := List.find?_eq_none.1 hf x h
    simp at this
  | some y => exact ⟨_, rfl⟩

/-- With one entry at each path, this is the one. -/
theorem Sound.kindAt_eq {fs : FS} (hs : Sound fs) {x : Path × Kind} (h : x ∈ fs) : kindAt fs x.1 = some x.2 := by
  have h0 := (hs.inside x h).1
  obtain ⟨k, hk⟩ := kindAt_of_mem h0 h
  have h2 := kindAt_mem h0 hk
  have := List.inj_on_of_nodup_map hs.once h h2 rfl
  rw [hk, this]

theorem kindAt_filter {fs : FS} {P : Path → Prop} [DecidablePred P] {p : Path} (h : P p) : kindAt (fs.filter fun x => decide (P x.1)) p = kindAt fs p := by
  by_cases h0 : p = []
  · simp [kindAt, h0]
  rw [kindAt_ne h0, kindAt_ne h0, List.find?_filter]
  congr 1
  congr 1
  funext x
  by_cases hx : x.1 = p
  · simp [hx, h]
  · simp [hx]

theorem kindAt_filter_none {fs : FS} {P : Path → Prop} [DecidablePred P] {p : Path} (h0 : p ≠ []) (h : ¬ P p) : kindAt (fs.filter fun x => decide (P x.1)) p = none := by
  rw [kindAt_ne h0, List.find?_filter, Option.map_eq_none_iff, List.find?_eq_none]
  intro x _
  by_cases hx : x.1 = p
  · simp [hx, h]
  · simp [hx]

theorem kindAt_without {fs : FS} {p q : Path} (h : ¬ p <+: q) : kindAt (without fs p) q = kindAt fs q := kindAt_filter (P := fun x => ¬ p <+: x) h

theorem mem_entries {fs : FS} {p : Path} {n : Str} : n ∈ entries fs p ↔ ∃ k, (p ++ [n], k) ∈ fs := by
  unfold entries
  rw [List.mem_filterMap]
  constructor
  · rintro ⟨⟨q, k⟩, hx, h⟩
    rw [Option.bind_eq_some_iff] at h
    obtain ⟨n', hn, h⟩ := h
    dsimp only at hn h
    split at h
    · rename_i hq
      cases h
      refine ⟨k, ?_⟩
      rw [← hq, List.dropLast_append_getLast? _ hn]
      exact hx
    · cases h
  · rintro ⟨k, hx⟩
    exact ⟨_, hx, by simp⟩

theorem Sound.entries_nodup {fs : FS} (hs : Sound fs) (p : Path) : (entries fs p).Nodup := by
  have e : entries fs p = (fs.map (·.1)).filterMap fun q => q.getLast?.bind fun n => if q.dropLast = p then some n else none := by
    rw [List.filterMap_map]
    rfl
  rw [e]
  refine hs.once.filterMap ?_
  have key : ∀ (q : Path) n, (q.getLast?.bind fun n => if q.dropLast = p then some n else none) = some n → q = p ++ [n] := by
    intro q n h
    rw [Option.bind_eq_some_iff] at h
    obtain ⟨n', hn, h⟩ := h
    split at h
    · rename_i hq
      cases h
      rw [← hq, List.dropLast_append_getLast? _ hn]
    · cases h
  intro a b n ha hb
  rw [key a n ha, key b n hb]

/-- What is above an entry is a directory. -/
theorem Sound.above {fs : FS} (hs : Sound fs) {p q : Path} (hp : kindAt fs p ≠ none) (h : q <+: p) (hne : q ≠ p) : kindAt fs q = some .dir := by
  obtain ⟨r, rfl⟩ := h
  induction r using List.reverseRecOn with
  | nil => simp at hne
  | append_singleton r n ih =>
    have h0 : q ++ (r ++ [n]) ≠ [] := by simp
    obtain ⟨k, hk⟩ := Option.ne_none_iff_exists'.1 hp
    have := (hs.inside _ (kindAt_mem h0 hk)).2
    rw [← List.append_assoc, List.dropLast_concat] at this
    by_cases hr : r = []
    · subst hr
      simpa using this
    · exact ih (by rw [this]; simp) (by simpa using hr)

/-- Without links a path leads where it says. -/
theorem walk_plain {fs : FS} (fuel : Nat) (done todo : Path) (hd : ∀ q, q ≠ [] → q <+: todo → q ≠ todo → kindAt fs (done ++ q) = some .dir)
    {k : Kind} (hk : kindAt fs (done ++ todo) = some k) (hl : ∀ t, k ≠ .link t) : walk fs fuel done todo = some (done ++ todo) := by
  induction todo generalizing done with
  | nil => rw [walk, List.append_nil]
  | cons n rest ih =>
    rw [walk]
    by_cases hr : rest = []
    · subst hr
      rw [hk]
      cases k with
      | link t => exact absurd rfl (hl t)
      | dir => dsimp only; rw [walk]
      | _ => dsimp only; rw [if_pos rfl]
    · rw [hd [n] (by simp) (by simp) (by simpa using (Ne.symm hr))]
      dsimp only
      rw [ih (done ++ [n]) (fun q h0 h1 h2 => by
        have := hd (n :: q) (by simp) (by simpa using h1) (by simpa using h2)
        simpa using this) (by simpa using hk)]
      simp

theorem resolve_plain {fs : FS} (hs : Sound fs) {p : Path} {k : Kind} (hk : kindAt fs p = some k) (hl : ∀ t, k ≠ .link t) : resolve fs p = some p := by
  have := walk_plain (fs := fs) 40 [] p (fun q _ h1 h2 => by
    rw [List.nil_append]
    exact hs.above (by rw [hk]; simp) h1 h2) (by simpa using hk) hl
  simpa [resolve] using this

theorem stat_plain {fs : FS} (hs : Sound fs) {p : Path} {k : Kind} (hk : kindAt fs p = some k) (hl : ∀ t, k ≠ .link t) : stat fs p = some k := by
  rw [stat, resolve_plain hs hk hl, Option.bind_some, hk]

theorem place_plain {fs : FS} (hs : Sound fs) {p : Path} {n : Str} (hd : kindAt fs p = some .dir) : place fs (p ++ [n]) = some (p ++ [n]) := by
  unfold place
  rw [List.getLast?_concat, Option.bind_some, List.dropLast_concat, resolve_plain hs hd (by simp), Option.map_some]

/-- Taking away a directory with all that is below leaves a file system. -/
theorem Sound.without {fs : FS} (hs : Sound fs) (p : Path) : Sound (without fs p) := by
  refine ⟨hs.once.sublist (List.Sublist.map _ List.filter_sublist), fun x hx => ?_⟩
  unfold Files.without at hx
  rw [List.mem_filter, decide_eq_true_eq] at hx
  refine ⟨(hs.inside x hx.1).1, ?_⟩
  rw [kindAt_without fun h => hx.2 (h.trans (List.dropLast_prefix _))]
  exact (hs.inside x hx.1).2

theorem erase_eq_without {fs : FS} (hs : Sound fs) {p : Path} (h0 : p ≠ []) (h : kindAt fs p ≠ some .dir ∨ entries fs p = []) : erase fs p = Files.without fs p := by
  unfold erase Files.without
  refine List.filter_congr fun x hx => ?_
  rw [decide_eq_decide]
  constructor
  · intro hne hp
    obtain ⟨k, hk⟩ := kindAt_of_mem (hs.inside x hx).1 hx
    rcases h with h | h
    · exact h (hs.above (by rw [hk]; simp) hp (Ne.symm hne))
    · obtain ⟨r, hr⟩ := hp
      cases r with
      | nil => exact hne (by simpa using hr.symm)
      | cons n r =>
        have hex : kindAt fs (p ++ [n]) ≠ none := by
          by_cases hr' : r = []
          · subst hr'
            rw [hr, hk]
            simp
          · rw [hs.above (p := x.1) (by rw [hk]; simp) (q := p ++ [n]) ⟨r, by simpa using hr⟩ (by rw [← hr]; simpa using (Ne.symm hr'))]
            simp
        obtain ⟨k', hk'⟩ := Option.ne_none_iff_exists'.1 hex
        have : n ∈ entries fs p := mem_entries.2 ⟨k', kindAt_mem (by simp) hk'⟩
        rw [h] at this
        cases this
  · rintro hp rfl
    exact hp List.prefix_rfl

/-- Two paths with the same directory that are different are not below each other. -/
theorem not_prefix_sibling {p : Path} {n n' : Str} (h : n ≠ n') : ¬ (p ++ [n]) <+: (p ++ [n']) := by
  rintro ⟨r, hr⟩
  rw [List.append_assoc, List.append_cancel_left_eq] at hr
  simp at hr
  exact h hr.1

theorem DirAt.without {fs : FS} {p q : Path} (h : DirAt fs p) (hq : ¬ q <+: p) : DirAt (Files.without fs q) p := by
  intro r hr
  rw [kindAt_without fun h' => hq (h'.trans hr)]
  exact h r hr

theorem NoLinks.without {fs : FS} {p : Path} (h : NoLinks fs p) (q : Path) : NoLinks (Files.without fs q) p := by
  intro x hx
  exact h x (List.mem_filter.1 hx).1

/-- The loop of `remove_recurse`, if it removes directories as it should. -/
theorem removeEach_plain (remove : FS → Path → Outcome (FS × Int)) (p : Path) (N : Nat)
    (hrem : ∀ (fs : FS) (n : Str), Sound fs → DirAt fs (p ++ [n]) → NoLinks fs (p ++ [n]) → (∀ x ∈ fs, p ++ [n] <+: x.1 → x.1.length < N) →
      remove fs (p ++ [n]) = .ok (Files.without fs (p ++ [n]), 0)) (names : List Str) (fs : FS) (hs : Sound fs) (hd : DirAt fs p) (hl : NoLinks fs p)
    (hN : ∀ x ∈ fs, p <+: x.1 → x.1.length < N) (hn : names.Nodup) (hmem : ∀ n, n ∈ names ↔ n ∈ entries fs p) :
    removeEach remove fs p names = .ok (fs.filter fun x => decide (¬ (p <+: x.1 ∧ x.1 ≠ p)), 0) := by
  induction names generalizing fs with
  | nil =>
    rw [removeEach]
    congr 2
    refine (List.filter_eq_self.2 fun x hx => ?_).symm
    rw [decide_eq_true_eq]
    rintro ⟨h1, h2⟩
    have he : entries fs p = [] := List.eq_nil_iff_forall_not_mem.2 fun n h => by
      have := (hmem n).2 h
      cases this
    by_cases h0 : p = []
    · -- the working directory itself
      subst h0
      obtain ⟨n, r, hr⟩ := List.exists_cons_of_ne_nil (hs.inside x hx).1
      obtain ⟨k, hk⟩ := kindAt_of_mem (hs.inside x hx).1 hx
      have hex : kindAt fs [n] ≠ none := by
        by_cases hr' : r = []
        · rw [← hr', ← hr, hk]
          simp
        · rw [hs.above (p := x.1) (by rw [hk]; simp) (q := [n]) ⟨r, by rw [hr]; rfl⟩ (by rw [hr]; simpa using (Ne.symm hr'))]
          simp
      obtain ⟨k', hk'⟩ := Option.ne_none_iff_exists'.1 hex
      have : n ∈ entries fs [] := mem_entries.2 ⟨k', kindAt_mem (by simp) hk'⟩
      rw [he] at this
      cases this
    · have e := erase_eq_without hs h0 (.inr he)
      have hx' : x ∈ erase fs p := List.mem_filter.2 ⟨hx, by simpa using h2⟩
      rw [e] at hx'
      have := (List.mem_filter.1 hx').2
      simp only [decide_eq_true_eq] at this
      exact this h1
  | cons n names ih =>
    obtain ⟨k, hx⟩ := mem_entries.1 ((hmem n).1 (by simp))
    have hk := hs.kindAt_eq hx
    dsimp only at hk
    have hkl : ∀ t, k ≠ .link t := hl _ hx (by simp)
    have hpd := hd p List.prefix_rfl
    have step : removeOne remove fs (p ++ [n]) = Outcome.ok (Files.without fs (p ++ [n]), (0 : Int)) := by
      unfold removeOne
      rw [stat_plain hs hk hkl]
      by_cases hkd : k = .dir
      · subst hkd
        refine hrem fs n hs (fun q hq => ?_) (fun x hx' hp => hl x hx' ((List.prefix_append _ _).trans hp)) fun x hx' hp =>
          hN x hx' ((List.prefix_append _ _).trans hp)
        by_cases hq' : q = p ++ [n]
        · rw [hq', hk]
        · exact hs.above (by rw [hk]; simp) hq hq'
      · have hu : unlink fs (p ++ [n]) = (Files.without fs (p ++ [n]), 0) := by
          unfold unlink
          rw [place_plain hs hpd]
          dsimp only
          rw [hk, ← erase_eq_without hs (by simp) (.inl (by rw [hk]; simpa using hkd))]
          cases k <;> first | rfl | exact absurd rfl hkd
        cases k <;> first | exact absurd rfl hkd | (dsimp only; rw [hu])
    rw [removeEach, step, Outcome.bind_ok, if_pos rfl]
    have hsib : ∀ n', n' ≠ n → kindAt (Files.without fs (p ++ [n])) (p ++ [n']) = kindAt fs (p ++ [n']) :=
      fun n' h => kindAt_without (not_prefix_sibling (Ne.symm h))
    have hpn : ¬ (p ++ [n]) <+: p := fun h => by
      have := h.length_le
      rw [List.length_append, List.length_singleton] at this
      omega
    rw [ih _ (hs.without _) (hd.without hpn) (hl.without _) (fun x hx' => hN x (List.mem_filter.1 hx').1) (List.nodup_cons.1 hn).2 fun n' => ?_]
    · congr 2
      unfold Files.without
      rw [List.filter_filter]
      refine List.filter_congr fun x _ => ?_
      rw [← Bool.decide_and, decide_eq_decide]
      constructor
      · exact fun h => h.1
      · refine fun h => ⟨h, fun h' => h ⟨(List.prefix_append _ _).trans h', ?_⟩⟩
        rintro rfl
        exact hpn h'
    · have hnn := (List.nodup_cons.1 hn).1
      have h1 := hmem n'
      rw [List.mem_cons] at h1
      have mem_iff : ∀ (g : FS), n' ∈ entries g p ↔ kindAt g (p ++ [n']) ≠ none := fun g => by
        rw [mem_entries]
        constructor
        · rintro ⟨k', h'⟩
          obtain ⟨k'', h''⟩ := kindAt_of_mem (x := (p ++ [n'], k')) (by simp) h'
          dsimp only at h''
          rw [h'']
          simp
        · intro h'
          obtain ⟨k', h''⟩ := Option.ne_none_iff_exists'.1 h'
          exact ⟨k', kindAt_mem (by simp) h''⟩
      rw [mem_iff] at h1 ⊢
      by_cases hne : n' = n
      · subst hne
        have : kindAt (Files.without fs (p ++ [n'])) (p ++ [n']) = none :=
          kindAt_filter_none (P := fun x => ¬ (p ++ [n']) <+: x) (by simp) (by simp)
        rw [this]
        simp [hnn]
      · rw [hsib n' hne, ← h1]
        simp [hne]

/-- **C137.** Removing a directory that has no symbolic links in it removes it with everything below and nothing else, and reports success;
`fuel` is the depth of the calls, for which the longest path suffices. -/
theorem removeRecurse_tree (fuel : Nat) (fs : FS) (p : Path) (hs : Sound fs) (h0 : p ≠ []) (hd : DirAt fs p) (hl : NoLinks fs p)
    (hN : ∀ x ∈ fs, p <+: x.1 → x.1.length < p.length + fuel) : removeRecurse fuel fs p = .ok (without fs p, 0) := by
  induction fuel generalizing fs p with
  | zero =>
    have := hN (p, .dir) (kindAt_mem h0 (hd p List.prefix_rfl)) List.prefix_rfl
    simp at this
  | succ fuel ih =>
    have hpd := hd p List.prefix_rfl
    have ho : openDir fs p = some (entries fs p) := by
      unfold openDir
      rw [resolve_plain hs hpd (by simp), Option.bind_some, if_pos hpd]
    rw [removeRecurse, ho]
    dsimp only
    rw [removeEach_plain (removeRecurse fuel) p (p.length + (fuel + 1)) (fun g n hs' hd' hl' hN' => ih g (p ++ [n]) hs' (by simp) hd' hl' fun x hx hp => by
        have := hN' x hx hp
        simp only [List.length_append, List.length_singleton]
        omega) _ fs hs hd hl hN (hs.entries_nodup p) fun _ => Iff.rfl, Outcome.bind_ok, if_pos rfl]
    set g : FS := fs.filter fun x => decide (¬ (p <+: x.1 ∧ x.1 ≠ p)) with hg
    have hgk : ∀ q, ¬ (p <+: q ∧ q ≠ p) → kindAt g q = kindAt fs q := fun q hq => kindAt_filter (P := fun q => ¬ (p <+: q ∧ q ≠ p)) hq
    have hgs : Sound g := by
      refine ⟨hs.once.sublist (List.Sublist.map _ List.filter_sublist), fun x hx => ?_⟩
      obtain ⟨hx1, hx2⟩ := List.mem_filter.1 hx
      rw [decide_eq_true_eq] at hx2
      refine ⟨(hs.inside x hx1).1, ?_⟩
      rw [hgk, (hs.inside x hx1).2]
      rintro ⟨h1, h2⟩
      refine hx2 ⟨h1.trans (List.dropLast_prefix _), ?_⟩
      rintro rfl
      have := h1.length_le
      simp only [List.length_dropLast] at this
      have := List.length_pos_iff.2 h0
      omega
    have hge : entries g p = [] := List.eq_nil_iff_forall_not_mem.2 fun n hn => by
      obtain ⟨k, hk⟩ := mem_entries.1 hn
      have := (List.mem_filter.1 hk).2
      simp at this
    have hgp : kindAt g p = some .dir := by
      rw [hgk p (by simp), hpd]
    obtain ⟨d, n, rfl⟩ : ∃ d n, p = d ++ [n] := ⟨p.dropLast, p.getLast h0, (List.dropLast_append_getLast h0).symm⟩
    have hgd : kindAt g d = some .dir := by
      rw [hgk d, hd d (List.prefix_append _ _)]
      rintro ⟨h1, _⟩
      have := h1.length_le
      rw [List.length_append, List.length_singleton] at this
      omega
    unfold rmdir
    rw [place_plain hgs hgd]
    dsimp only
    rw [if_pos ⟨hgp, hge⟩, erase_eq_without hgs h0 (.inr hge)]
    congr 2
    unfold without
    rw [hg, List.filter_filter]
    refine List.filter_congr fun x _ => ?_
    rw [← Bool.decide_and, decide_eq_decide]
    constructor
    · exact fun h => h.1
    · exact fun h => ⟨h, fun h' => h h'.1⟩

theorem prefix_one {q : Path} {n : Str} (h : q <+: [n]) : q = [] ∨ q = [n] := by
  obtain ⟨r, hr⟩ := h
  cases q with
  | nil => exact .inl rfl
  | cons a q =>
    rw [List.cons_append, List.cons.injEq, List.append_eq_nil_iff] at hr
    exact .inr (by rw [hr.1, hr.2.1])

/-- A directory with a file and a directory in it, and a file elsewhere. -/
def exTree : FS := [(["out".toList], .dir), (["out".toList, "a".toList], .reg), (["b".toList], .reg), (["out".toList, "sub".toList], .dir),
  (["out".toList, "sub".toList, "c".toList], .reg)]

theorem exTree_sound : Sound exTree := ⟨by decide, by decide⟩

theorem exTree_dir : DirAt exTree ["out".toList] := by
  intro q hq
  rcases prefix_one hq with rfl | rfl <;> decide

example : removeRecurse 3 exTree ["out".toList] = .ok ([(["b".toList], .reg)], 0) := by
  rw [removeRecurse_tree 3 exTree _ exTree_sound (by decide) exTree_dir (by unfold NoLinks exTree; simp) (by decide)]
  rfl

/-- Without any hypothesis on links: what is not a directory is not removed. -/
theorem removeRecurse_other (fuel : Nat) (fs : FS) (p : Path) (h : stat fs p ≠ some .dir) : removeRecurse (fuel + 1) fs p = .ok (fs, -1) := by
  have : openDir fs p = none := by
    unfold openDir
    unfold stat at h
    cases hr : resolve fs p with
    | none => rfl
    | some d =>
      rw [hr, Option.bind_some] at h
      rw [Option.bind_some, if_neg h]
  rw [removeRecurse, this]
  rfl

example : removeRecurse 1 exTree ["b".toList] = .ok (exTree, -1) := removeRecurse_other 0 _ _ (by
  rw [stat_plain exTree_sound (k := .reg) (by decide) (by simp)]
  decide)

/-- A directory with a symbolic link to another one. -/
def exLink : FS := [(["a".toList], .dir), (["a".toList, "l".toList], .link ["b".toList]), (["b".toList], .dir), (["b".toList, "x".toList], .reg)]

/-- A directory with a symbolic link to nothing. -/
def exDangling : FS := [(["a".toList], .dir), (["a".toList, "l".toList], .link ["b".toList]), (["a".toList, "x".toList], .reg)]

theorem walk_nil (fs : FS) (f : Nat) (done : Path) : walk fs f done [] = some done := by rw [walk]

theorem walk_dir {fs : FS} {f : Nat} {done rest : Path} {n : Str} (h : kindAt fs (done ++ [n]) = some .dir) :
    walk fs f done (n :: rest) = walk fs f (done ++ [n]) rest := by
  rw [walk, h]

theorem walk_link {fs : FS} {f : Nat} {done rest t : Path} {n : Str} (h : kindAt fs (done ++ [n]) = some (.link t)) :
    walk fs (f + 1) done (n :: rest) = walk fs f [] (t ++ rest) := by
  rw [walk, h]

theorem walk_none {fs : FS} {f : Nat} {done rest : Path} {n : Str} (h : kindAt fs (done ++ [n]) = none) : walk fs f done (n :: rest) = none := by
  rw [walk, h]

theorem walk_reg {fs : FS} {f : Nat} {done : Path} {n : Str} (h : kindAt fs (done ++ [n]) = some .reg) : walk fs f done [n] = some (done ++ [n]) := by
  rw [walk, h]
  rfl

/-- **C137.** The files in a directory that a symbolic link leads to are removed although they are elsewhere, and the link and the directory to be
removed stay. -/
theorem removeRecurse_link_violated : ∃ (fs fs' : FS) (p q : Path), Sound fs ∧ DirAt fs p ∧ ¬ p <+: q ∧ kindAt fs q = some .reg ∧
    (∀ fuel, removeRecurse (fuel + 3) fs p = .ok (fs', -1)) ∧ kindAt fs' q = none ∧ kindAt fs' p = some .dir := by
  refine ⟨exLink, [(["a".toList], .dir), (["a".toList, "l".toList], .link ["b".toList]), (["b".toList], .dir)], ["a".toList], ["b".toList, "x".toList],
    ⟨by decide, by decide⟩, ?_, by decide, by decide, fun fuel => ?_, by decide, by decide⟩
  · intro q hq
    rcases prefix_one hq with rfl | rfl <;> decide
  · have r1 : resolve exLink ["a".toList] = some ["a".toList] := by
      rw [resolve, walk_dir (by decide), walk_nil]
      rfl
    have r2 : resolve exLink ["a".toList, "l".toList] = some ["b".toList] := by
      rw [resolve, walk_dir (by decide), walk_link (t := ["b".toList]) (by decide), List.append_nil, walk_dir (by decide), walk_nil]
      rfl
    have r3 : resolve exLink ["a".toList, "l".toList, "x".toList] = some ["b".toList, "x".toList] := by
      rw [resolve, walk_dir (by decide), walk_link (t := ["b".toList]) (by decide)]
      show walk _ _ _ ("b".toList :: _) = _
      rw [walk_dir (by decide)]
      exact walk_reg (by decide)
    set fs' : FS := [(["a".toList], .dir), (["a".toList, "l".toList], .link ["b".toList]), (["b".toList], .dir)] with hfs'
    have r1' : resolve fs' ["a".toList] = some ["a".toList] := by
      rw [resolve, walk_dir (by decide), walk_nil]
      rfl
    have o1 : openDir exLink ["a".toList] = some ["l".toList] := by
      rw [openDir, r1]
      decide
    have o2 : openDir exLink ["a".toList, "l".toList] = some ["x".toList] := by
      rw [openDir, r2]
      decide
    have u : unlink exLink ["a".toList, "l".toList, "x".toList] = (fs', 0) := by
      have hp : place exLink ["a".toList, "l".toList, "x".toList] = some ["b".toList, "x".toList] := by
        show (resolve exLink ["a".toList, "l".toList]).map _ = _
        rw [r2]
        rfl
      rw [unlink, hp]
      rfl
    have d : rmdir fs' ["a".toList, "l".toList] = (fs', -1) := by
      have hp : place fs' ["a".toList, "l".toList] = some ["a".toList, "l".toList] := by
        show (resolve fs' ["a".toList]).map _ = _
        rw [r1']
        rfl
      rw [rmdir, hp]
      rfl
    have s1 : stat exLink ["a".toList, "l".toList] = some .dir := by
      rw [stat, r2]
      decide
    have s2 : stat exLink ["a".toList, "l".toList, "x".toList] = some .reg := by
      rw [stat, r3]
      decide
    have one2 : removeOne (removeRecurse (fuel + 1)) exLink (["a".toList, "l".toList] ++ ["x".toList]) = .ok (fs', 0) := by
      show removeOne _ _ ["a".toList, "l".toList, "x".toList] = _
      rw [removeOne, s2]
      dsimp only
      rw [u]
    have rec2 : removeRecurse (fuel + 2) exLink ["a".toList, "l".toList] = .ok (fs', -1) := by
      rw [removeRecurse, o2]
      dsimp only
      rw [removeEach, one2, Outcome.bind_ok, if_pos rfl, removeEach, Outcome.bind_ok, if_pos rfl, d]
    have one1 : removeOne (removeRecurse (fuel + 2)) exLink (["a".toList] ++ ["l".toList]) = .ok (fs', -1) := by
      show removeOne _ _ ["a".toList, "l".toList] = _
      rw [removeOne, s1]
      exact rec2
    rw [removeRecurse, o1]
    dsimp only
    rw [removeEach, one1, Outcome.bind_ok, if_neg (by decide), Outcome.bind_ok, if_neg (by decide)]

/-- **C137.** A directory with a symbolic link to nothing is not removed. -/
theorem removeRecurse_dangling_violated : ∃ (fs : FS) (p : Path), Sound fs ∧ DirAt fs p ∧ ∀ fuel, removeRecurse (fuel + 1) fs p = .ok (fs, -1) := by
  refine ⟨exDangling, ["a".toList], ⟨by decide, by decide⟩, ?_, fun fuel => ?_⟩
  · intro q hq
    rcases prefix_one hq with rfl | rfl <;> decide
  · have r1 : resolve exDangling ["a".toList] = some ["a".toList] := by
      rw [resolve, walk_dir (by decide), walk_nil]
      rfl
    have o1 : openDir exDangling ["a".toList] = some ["l".toList, "x".toList] := by
      rw [openDir, r1]
      decide
    have s1 : stat exDangling ["a".toList, "l".toList] = none := by
      rw [stat, resolve, walk_dir (by decide), walk_link (t := ["b".toList]) (by decide), List.append_nil, walk_none (by decide)]
      rfl
    have one1 : removeOne (removeRecurse fuel) exDangling (["a".toList] ++ ["l".toList]) = .ok (exDangling, -1) := by
      show removeOne _ _ ["a".toList, "l".toList] = _
      rw [removeOne, s1]
    rw [removeRecurse, o1]
    dsimp only
    rw [removeEach, one1, Outcome.bind_ok, if_neg (by decide), Outcome.bind_ok, if_neg (by decide)]

/-! ### Questions -/

/-- Where a path leads there is no link. -/
theorem walk_ends {fs : FS} (fuel : Nat) (done todo q : Path) (hd : ∀ t, kindAt fs done ≠ some (.link t)) (h : walk fs fuel done todo = some q) :
    ∀ t, kindAt fs q ≠ some (.link t) := by
  induction fuel, done, todo using walk.induct (fs := fs) with
  | case1 f done =>
    rw [walk_nil] at h
    cases h
    exact hd
  | case2 f done n rest hk =>
    rw [walk_none hk] at h
    cases h
  | case3 done n rest t hk =>
    rw [walk, hk] at h
    cases h
  | case4 done n rest t hk f ih =>
    rw [walk_link hk] at h
    exact ih (by simp [kindAt]) h
  | case5 f done n rest hk ih =>
    rw [walk_dir hk] at h
    exact ih (by rw [hk]; simp) h
  | case6 f done n k hl hd' hk =>
    rw [walk, hk] at h
    cases k with
    | link t => exact (hl t rfl).elim
    | dir => exact (hd' rfl).elim
    | _ =>
      dsimp only at h
      rw [if_pos rfl] at h
      cases h
      rw [hk]
      simp
  | case7 f done n rest k hl hd' hk hr =>
    rw [walk, hk] at h
    cases k with
    | link t => exact (hl t rfl).elim
    | dir => exact (hd' rfl).elim
    | _ =>
      dsimp only at h
      rw [if_neg hr] at h
      cases h

/-- **C137.** What `isdir` takes for a directory: directories, and also block devices and sockets. -/
theorem isDir_iff (fs : FS) (p : Path) : isDir fs p = true ↔ stat fs p = some .dir ∨ stat fs p = some .blk ∨ stat fs p = some .sock := by
  unfold isDir
  cases h : stat fs p with
  | none => simp
  | some k => cases k <;> simp [Kind.mode]

/-- **C137.** What `isfile` takes for a file: regular files, and also sockets. -/
theorem isFile_iff (fs : FS) (p : Path) : isFile fs p = true ↔ stat fs p = some .reg ∨ stat fs p = some .sock := by
  have hl : ∀ t, stat fs p ≠ some (.link t) := by
    intro t h
    unfold stat at h
    cases hr : resolve fs p with
    | none =>
      rw [hr] at h
      cases h
    | some q =>
      rw [hr, Option.bind_some] at h
      exact walk_ends 40 [] p q (by simp [kindAt]) hr t h
  unfold isFile
  cases h : stat fs p with
  | none => simp
  | some k =>
    cases k with
    | link t => exact absurd h (hl t)
    | _ => simp [Kind.mode]

/-- **C137.** A socket is reported as a directory and as a regular file. -/
theorem isdir_violated : ∃ fs p, Sound fs ∧ kindAt fs p = some .sock ∧ isDir fs p = true ∧ isFile fs p = true := by
  have hs : Sound [(["s".toList], .sock)] := ⟨by decide, by decide⟩
  have h : stat [(["s".toList], .sock)] ["s".toList] = some .sock := stat_plain hs (by decide) (by simp)
  exact ⟨[(["s".toList], .sock)], ["s".toList], hs, by decide, (isDir_iff _ _).2 (.inr (.inr h)), (isFile_iff _ _).2 (.inr h)⟩

/-- **C137.** Listing a directory gives the names in it that do not begin with a dot, each once; listing anything else throws. -/
theorem listdir_spec (fs : FS) (p : Path) (hs : Sound fs) :
    (kindAt fs p = some .dir → ∃ names, listdir fs p = .ok names ∧ names.Nodup ∧
      ∀ n, n ∈ names ↔ (∃ k, kindAt fs (p ++ [n]) = some k) ∧ n.head? ≠ some '.') ∧
    (stat fs p ≠ some .dir → listdir fs p = .throws .invalidArgument) := by
  constructor
  · intro hp
    have ho : openDir fs p = some (entries fs p) := by
      unfold openDir
      rw [resolve_plain hs hp (by simp), Option.bind_some, if_pos hp]
    refine ⟨_, by rw [listdir, ho], (hs.entries_nodup p).filter _, fun n => ?_⟩
    rw [List.mem_filter, decide_eq_true_eq, mem_entries]
    refine and_congr_left fun _ => ⟨?_, ?_⟩
    · rintro ⟨k, hk⟩
      exact ⟨k, hs.kindAt_eq hk⟩
    · rintro ⟨k, hk⟩
      exact ⟨k, kindAt_mem (by simp) hk⟩
  · intro h
    have : openDir fs p = none := by
      unfold openDir
      unfold stat at h
      cases hr : resolve fs p with
      | none => rfl
      | some d =>
        rw [hr, Option.bind_some] at h
        rw [Option.bind_some, if_neg h]
    rw [listdir, this]

example : ∃ names, listdir exTree ["out".toList] = .ok names ∧ "a".toList ∈ names ∧ "b".toList ∉ names := by
  obtain ⟨names, h, -, hm⟩ := (listdir_spec exTree ["out".toList] exTree_sound).1 (by decide)
  refine ⟨names, h, (hm _).2 ⟨⟨.reg, by decide⟩, by decide⟩, fun hb => ?_⟩
  obtain ⟨⟨k, hk⟩, -⟩ := (hm _).1 hb
  rw [show kindAt exTree (["out".toList] ++ ["b".toList]) = none by decide] at hk
  cases hk

/-! ### Making directories -/

theorem kindAt_append {fs : FS} {q r : Path} (h0 : q ≠ []) (h : kindAt fs q = none) :
    kindAt (fs ++ [(q, .dir)]) r = if r = q then some .dir else kindAt fs r := by
  by_cases hr : r = []
  · subst hr
    rw [if_neg (Ne.symm h0)]
    rfl
  rw [kindAt_ne hr, kindAt_ne hr, List.find?_append]
  by_cases hrq : r = q
  · subst hrq
    rw [if_pos rfl]
    rw [kindAt_ne h0, Option.map_eq_none_iff] at h
    rw [h]
    simp
  · rw [if_neg hrq]
    simp [Ne.symm hrq]

theorem Sound.append {fs : FS} (hs : Sound fs) {q : Path} (h0 : q ≠ []) (h : kindAt fs q = none) (hd : kindAt fs q.dropLast = some .dir) :
    Sound (fs ++ [(q, .dir)]) := by
  have hnot : q ∉ fs.map (·.1) := by
    intro hq
    obtain ⟨x, hx, rfl⟩ := List.mem_map.1 hq
    rw [hs.kindAt_eq hx] at h
    cases h
  have keep : ∀ r, kindAt fs r = some .dir → kindAt (fs ++ [(q, .dir)]) r = some .dir := by
    intro r hr
    rw [kindAt_append h0 h]
    split
    · rfl
    · exact hr
  refine ⟨?_, fun x hx => ?_⟩
  · rw [List.map_append, List.map_singleton, List.nodup_append]
    refine ⟨hs.once, by simp, ?_⟩
    intro a ha b hb
    rw [List.mem_singleton] at hb
    rintro rfl
    have hb' : a = q := hb
    exact hnot (hb' ▸ ha)
  · rw [List.mem_append, List.mem_singleton] at hx
    rcases hx with hx | rfl
    · exact ⟨(hs.inside x hx).1, keep _ (hs.inside x hx).2⟩
    · exact ⟨h0, keep _ hd⟩

/-- **C137.** If on the way there is nothing but directories, or nothing at all, `require_dir` makes the directories that are missing and nothing else. -/
theorem requireDir_makes_partial (fs : FS) (p : Path) (hs : Sound fs) (h : ∀ q, q <+: p → kindAt fs q = none ∨ kindAt fs q = some .dir) :
    Sound (requireDir fs p) ∧ ∀ q, kindAt (requireDir fs p) q = if q <+: p then some .dir else kindAt fs q := by
  have main : ∀ (todo done : Path) (fs : FS), Sound fs → DirAt fs done → (∀ q, q <+: done ++ todo → kindAt fs q = none ∨ kindAt fs q = some .dir) →
      Sound (requireLoop fs done todo) ∧ ∀ q, kindAt (requireLoop fs done todo) q = if q <+: done ++ todo then some .dir else kindAt fs q := by
    intro todo
    induction todo with
    | nil =>
      intro done fs hs hd h
      refine ⟨hs, fun q => ?_⟩
      rw [requireLoop, List.append_nil]
      split
      · rename_i hq
        exact hd q hq
      · rfl
    | cons n todo ih =>
      intro done fs hs hd h
      rw [requireLoop]
      have hdone := hd done List.prefix_rfl
      have hq0 : done ++ [n] ≠ [] := by simp
      have e : done ++ n :: todo = done ++ [n] ++ todo := by simp
      rcases h (done ++ [n]) ⟨todo, by simp⟩ with hk | hk
      · have hm : (mkdir fs (done ++ [n])).1 = fs ++ [(done ++ [n], .dir)] := by
          rw [mkdir, place_plain hs hdone]
          dsimp only
          rw [List.dropLast_concat, if_pos ⟨hk, hdone⟩]
        rw [hm]
        have hka := fun r => kindAt_append (r := r) hq0 hk
        have h1 : DirAt (fs ++ [(done ++ [n], .dir)]) (done ++ [n]) := by
          intro q hq
          rw [hka]
          split
          · rfl
          · rename_i hne
            rw [List.prefix_concat_iff] at hq
            exact hd q (hq.resolve_left hne)
        have h2 : ∀ q, q <+: done ++ [n] ++ todo → kindAt (fs ++ [(done ++ [n], .dir)]) q = none ∨ kindAt (fs ++ [(done ++ [n], .dir)]) q = some .dir := by
          intro q hq
          rw [hka]
          split
          · exact .inr rfl
          · exact h q (by rw [e]; exact hq)
        obtain ⟨a, b⟩ := ih (done ++ [n]) (fs ++ [(done ++ [n], .dir)]) (hs.append hq0 hk (by rw [List.dropLast_concat, hdone])) h1 h2
        refine ⟨a, fun q => ?_⟩
        rw [b q, hka, e]
        by_cases hq : q = done ++ [n]
        · rw [if_pos (by rw [hq]; exact List.prefix_append _ _), if_pos (by rw [hq]; exact List.prefix_append _ _)]
        · rw [if_neg hq]
      · have hm : (mkdir fs (done ++ [n])).1 = fs := by
          rw [mkdir, place_plain hs hdone]
          dsimp only
          rw [if_neg (by rw [hk]; simp)]
        rw [hm, e]
        refine ih (done ++ [n]) fs hs (fun q hq => ?_) fun q hq => h q (by rw [e]; exact hq)
        rw [List.prefix_concat_iff] at hq
        rcases hq with rfl | hq
        · exact hk
        · exact hd q hq
  exact main p [] fs hs (fun q hq => by rw [List.prefix_nil] at hq; subst hq; rfl) (by simpa using h)

example : kindAt (requireDir exTree ["out".toList, "new".toList, "x".toList]) ["out".toList, "new".toList] = some .dir := by
  rw [(requireDir_makes_partial exTree ["out".toList, "new".toList, "x".toList] exTree_sound fun q hq => ?_).2, if_pos (by decide)]
  obtain ⟨r, hr⟩ := hq
  match q, r, hr with
  | [], _, _ => decide
  | [a], _, h =>
    have : a = "out".toList := by simp at h; exact h.1
    subst this
    decide
  | [a, b], _, h =>
    have : a = "out".toList ∧ b = "new".toList := by simp at h; exact ⟨h.1, h.2.1⟩
    obtain ⟨rfl, rfl⟩ := this
    decide
  | [a, b, c], _, h =>
    have : a = "out".toList ∧ b = "new".toList ∧ c = "x".toList := by simp at h; exact ⟨h.1, h.2.1, h.2.2.1⟩
    obtain ⟨rfl, rfl, rfl⟩ := this
    decide
  | a :: b :: c :: d :: q, _, h =>
    simp at h

/-- **C137.** With a file of that name, `require_dir` returns as if it had made the directory. -/
theorem requireDir_violated : ∃ fs p, Sound fs ∧ requireDir fs p = fs ∧ isDir (requireDir fs p) p = false := by
  have hs : Sound [(["out".toList], .reg)] := ⟨by decide, by decide⟩
  have h : stat [(["out".toList], .reg)] ["out".toList] = some .reg := stat_plain hs (by decide) (by simp)
  have e : requireDir [(["out".toList], .reg)] ["out".toList] = [(["out".toList], .reg)] := by
    rw [requireDir, requireLoop, requireLoop, mkdir, place_plain hs (p := []) rfl]
    decide
  refine ⟨_, _, hs, e, ?_⟩
  rw [e, Bool.eq_false_iff]
  intro hd
  rw [isDir_iff, h] at hd
  simp at hd

end Verif.Files
