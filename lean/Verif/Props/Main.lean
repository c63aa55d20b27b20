import Verif.Model.Main
import Verif.Props.Config
import Mathlib.Data.List.Nodup

/-!
# The command line (C123)
-/

namespace Verif.Main
open Verif Verif.Text Verif.Config Verif.Runs

variable {τ σ μ : Type}

theorem programs_eq (compiled : SubProg → Bool) :
    programs compiled = (allProgs.filter compiled).map fun p => (p.name, p) := by
  unfold programs allProgs
  cases h1 : compiled .boilerplate <;> cases h2 : compiled .partdom <;> cases h3 : compiled .sedov <;>
    cases h4 : compiled .cloud <;> cases h5 : compiled .binary <;> cases h6 : compiled .amrsand <;>
    cases h7 : compiled .test <;>
    simp only [List.filter, h1, h2, h3, h4, h5, h6, h7, List.foldl, List.map] <;> decide

theorem name_inj : ∀ p q : SubProg, p.name = q.name → p = q := by
  intro p q; cases p <;> cases q <;> decide

theorem mem_allProgs (p : SubProg) : p ∈ allProgs := by cases p <;> decide

theorem get?_map (l : List SubProg) (p : SubProg) (n : Str) :
    SMap.get? (l.map fun p => (p.name, p)) n = some p ↔ p ∈ l ∧ n = p.name := by
  induction l with
  | nil => simp [SMap.get?]
  | cons q l ih =>
    simp only [List.map, SMap.get?]
    split
    · rename_i h
      constructor
      · intro e; cases e; exact ⟨List.mem_cons_self, h.symm⟩
      · rintro ⟨_, e⟩; rw [name_inj q p (h.trans e)]
    · rename_i h
      rw [ih, List.mem_cons]
      constructor
      · rintro ⟨a, b⟩; exact ⟨.inr a, b⟩
      · rintro ⟨a | a, b⟩
        · subst a; exact absurd b.symm h
        · exact ⟨a, b⟩

theorem programs_get? (compiled : SubProg → Bool) (p : SubProg) (n : Str) :
    (programs compiled).get? n = some p ↔ compiled p = true ∧ n = p.name := by
  rw [programs_eq, get?_map, List.mem_filter]
  simp [mem_allProgs]

/-- C123: a sub-program that was compiled runs when its name comes first, with the arguments from its name on, and its exit
code is that of the process; no two sub-programs have the same name. -/
theorem main_runs {compiled : SubProg → Bool} {run : SubProg → List Str → Outcome Int} {p : SubProg}
    (h : compiled p = true) (exe : Str) (args : List Str) :
    main compiled run (exe :: p.name :: args) = (run p (p.name :: args)).map fun code => (code, []) := by
  simp only [main, (programs_get? compiled p p.name).2 ⟨h, rfl⟩]

/-- C123: without arguments the process lists the names of all sub-programs that were compiled, and no others, each once and in
alphabetical order, and ends with 0. -/
theorem main_usage (compiled : SubProg → Bool) (run : SubProg → List Str → Outcome Int) (exe : Str) :
    ∃ names : List Str, main compiled run [exe] =
        .ok (0, "usages: ".toList :: names.map fun n => "    mara ".toList ++ n) ∧
      names.Pairwise (· ≤ ·) ∧ names.Nodup ∧
      ∀ n, n ∈ names ↔ ∃ p, compiled p = true ∧ p.name = n := by
  refine ⟨_, rfl, ?_, ?_, ?_⟩
  · have := List.pairwise_mergeSort (le := fun a b : Str => decide (a ≤ b))
      (fun a b c h1 h2 => by
        simp only [decide_eq_true_eq] at *; exact List.le_trans h1 h2)
      (fun a b => by
        simp only [Bool.or_eq_true, decide_eq_true_eq]; exact List.le_total a b) (programs compiled).keys
    exact this.imp fun h => by simpa using h
  · rw [(List.mergeSort_perm _ _).nodup_iff, programs_eq, SMap.keys, List.map_map]
    refine (List.Nodup.filter _ (by decide)).map ?_
    intro p q e; exact name_inj p q e
  · intro n
    rw [List.mem_mergeSort, programs_eq, SMap.keys, List.map_map, List.mem_map]
    simp [mem_allProgs]

theorem settings_ok {stod : Str → Outcome τ} {t : Template τ} {fs : Str → Option (Checkpoint σ τ μ)} {p : SubProg}
    {args : SMap Str} {c : Config τ} (hargs : args.WF) (h : settings stod t fs p args = .ok c) :
    (∀ k s, args.get? k = some s → ∃ d v, t.get? k = some d ∧ parseAs stod d s = .ok v ∧ c.get k = .ok v) ∧
    (args.get? kRestart = none → ∀ k d, args.get? k = none → t.get? k = some d → c.get k = .ok d) := by
  have plain : ∀ {c : Config τ}, (Template.create t).updateText stod args = .ok c →
      (∀ k s, args.get? k = some s → ∃ d v, t.get? k = some d ∧ parseAs stod d s = .ok v ∧ c.get k = .ok v) ∧
      (∀ k d, args.get? k = none → t.get? k = some d → c.get k = .ok d) := by
    intro c h
    obtain ⟨b1, b2, b3⟩ := updateText_eq_ok h hargs
    have ht : c.template = t := b1
    refine ⟨?_, ?_⟩
    · intro k s hk
      obtain ⟨d, v, hd, hv, hc⟩ := b2 k s hk
      exact ⟨d, v, hd, hv, by rw [Config.get, ht]; rw [show t.get? k = some d from hd]; simp [hc]⟩
    · intro k d hk hd
      rw [Config.get, ht, hd, b3 k hk]
      rw [show (Template.create t).params.get? k = some d from hd]
  have full : ∀ g, createRunConfig stod t fs g args = .ok c →
      (∀ k s, args.get? k = some s → ∃ d v, t.get? k = some d ∧ parseAs stod d s = .ok v ∧ c.get k = .ok v) ∧
      (args.get? kRestart = none → ∀ k d, args.get? k = none → t.get? k = some d → c.get k = .ok d) := by
    intro g h
    cases hr : args.get? kRestart with
    | none => exact (config_precedence_fresh hargs hr h).imp_right fun h _ => h
    | some f =>
      cases hf : fs f with
      | none => rw [createRunConfig, hr] at h; simp [hf] at h
      | some ck =>
        cases hg : ck.get? g with
        | none => rw [createRunConfig, hr] at h; simp [hf, openConfig, hg, Outcome.bind] at h
        | some i =>
          cases i with
          | config m => exact ⟨(config_precedence hargs hr hf hg h).1, fun h => by cases h⟩
          | _ => rw [createRunConfig, hr] at h; simp [hf, openConfig, hg, Outcome.bind] at h
  cases p <;> first
    | exact full _ h
    | exact (plain h).imp_right fun h _ => h

/-- C123: when a run ends normally, every argument `key=value` after the name of the sub-program named an option of this
sub-program, had a value of its type, and was what the sub-program saw; options which were not given had their default values,
unless the run was a restart. -/
theorem command_line_partial {stod : Str → Outcome τ} {fs : Str → Option (Checkpoint σ τ μ)} {b : Body τ}
    {compiled : SubProg → Bool} {p : SubProg} (hp : compiled p = true) (ht : p ≠ .test) {exe : Str} {args : List Str}
    {code : Int} {out : List Str} (h : main compiled (subMain stod fs b) (exe :: p.name :: args) = .ok (code, out)) :
    ∃ c, b.simulate p c = .ok code ∧
      (∀ k v, '=' ∉ k → k ++ '=' :: v ∈ args →
        ∃ d x, (b.template p).get? k = some d ∧ parseAs stod d v = .ok x ∧ c.get k = .ok x) ∧
      ((∀ v, kRestart ++ '=' :: v ∉ args) → ∀ k d, (∀ v, k ++ '=' :: v ∉ args) →
        (b.template p).get? k = some d → c.get k = .ok d) := by
  rw [main_runs hp, Outcome.map_eq_ok] at h
  obtain ⟨code', h, e⟩ := h
  cases e
  have h' : ((argvToStringMap (p.name :: args)).bind fun args =>
      (settings stod (b.template p) fs p args).bind fun c => b.simulate p c) = .ok code := by
    cases p <;> first | exact h | exact absurd rfl ht
  simp only [Outcome.bind_eq_ok] at h'
  obtain ⟨m, hm, c, hc, hs⟩ := h'
  obtain ⟨hw, hget⟩ := (argv_map (p.name :: args)).1 m hm
  obtain ⟨a, b'⟩ := settings_ok hw hc
  have hname : '=' ∉ p.name := by cases p <;> decide
  have hmem : ∀ k v, k ++ '=' :: v ∈ p.name :: args ↔ k ++ '=' :: v ∈ args := by
    intro k v
    rw [List.mem_cons, or_iff_right]
    intro e; apply hname; rw [← e]; simp
  refine ⟨c, hs, ?_, ?_⟩
  · intro k v hk hv
    exact a k v ((hget k v).2 ⟨(hmem k v).2 hv, hk⟩)
  · have hn : ∀ k, (∀ v, k ++ '=' :: v ∉ args) → m.get? k = none := by
      intro k hk
      cases e : m.get? k with
      | none => rfl
      | some v => exact absurd ((hmem k v).1 ((hget k v).1 e).1) (hk v)
    intro hr k d hk hd
    exact b' (hn _ hr) k d (hn _ hk) hd

theorem argvLoop_filter (l : List Str) (m : SMap Str) : argvLoop m (l.filter ('=' ∈ ·)) = argvLoop m l := by
  induction l generalizing m with
  | nil => rfl
  | cons a l ih =>
    by_cases h : '=' ∈ a
    · rw [List.filter_cons_of_pos (by simpa using h)]
      simp only [argvLoop]
      congr 1; funext m'; exact ih m'
    · rw [List.filter_cons_of_neg (by simpa using h), ih]
      simp [argvLoop, argvStep, h]

/-- C123 is violated by arguments without `=`, such as the two of `N 512`: whatever they are, the run is that without them. -/
theorem command_line_violated (stod : Str → Outcome τ) (fs : Str → Option (Checkpoint σ τ μ)) (b : Body τ)
    {compiled : SubProg → Bool} {p : SubProg} (hp : compiled p = true) (ht : p ≠ .test) (exe : Str) (args : List Str) :
    main compiled (subMain stod fs b) (exe :: p.name :: args) =
      main compiled (subMain stod fs b) (exe :: p.name :: args.filter ('=' ∈ ·)) := by
  rw [main_runs hp, main_runs hp]
  have hname : '=' ∉ p.name := by cases p <;> decide
  have e : argvToStringMap (p.name :: args.filter ('=' ∈ ·)) = argvToStringMap (p.name :: args) := by
    rw [argvToStringMap, argvToStringMap, ← argvLoop_filter (p.name :: args), List.filter_cons_of_neg (by simpa using hname)]
    simp [argvLoop, argvStep, hname]
  have : subMain stod fs b p (p.name :: args.filter ('=' ∈ ·)) = subMain stod fs b p (p.name :: args) := by
    cases p <;> first | exact absurd rfl ht | (simp only [subMain]; rw [e])
  rw [this]

/-- C123 is violated by names that are not those of sub-programs: nothing runs, and the exit code is the one of success. -/
theorem unknown_name_violated {compiled : SubProg → Bool} (run : SubProg → List Str → Outcome Int) {name : Str}
    (h : ∀ p, compiled p = true → p.name ≠ name) (exe : Str) (args : List Str) :
    main compiled run (exe :: name :: args) =
      .ok (0, ["invalid sub-program '".toList ++ name ++ "'".toList]) := by
  have : (programs compiled).get? name = none := by
    cases e : (programs compiled).get? name with
    | none => rfl
    | some p =>
      obtain ⟨a, b⟩ := (programs_get? _ _ _).1 e
      exact absurd b.symm (h p a)
  simp only [main, this]

/-! ### Examples -/

/-- Sub-programs with the options of `exTemplate`, which end with the number of zones as their exit code. -/
def exBody : Body Nat where
  template := fun _ => exTemplate
  simulate := fun _ c => c.getInt "N".toList
  catch2 := fun _ => .ok 0

def exFiles : Str → Option (Checkpoint Unit Nat Unit) := fun _ => none

example : main (fun p => p ≠ .test) (subMain (fun _ => .ok 3) exFiles exBody)
    ["./mara".toList, SubProg.binary.name, "N=12".toList, "cpi=x".toList] = .ok (12, []) := by decide

example : main (fun p => p ≠ .test) (subMain (fun _ => .ok 3) exFiles exBody)
    ["./mara".toList, SubProg.binary.name, "N".toList, "12".toList] = .ok (256, []) := by
  rw [command_line_violated _ _ _ (by decide) (by decide)]; decide

example : main (fun p => p ≠ .test) (subMain (fun _ => .ok 3) exFiles exBody)
    ["./mara".toList, SubProg.binary.name, "M=12".toList] = .throws .invalidArgument := by decide

example : ∀ p : SubProg, (fun p => decide (p ≠ .test)) p = true → p.name ≠ "test".toList := by
  intro p; cases p <;> decide

example : (programs fun p => p = .sedov ∨ p = .binary).keys = ["sedov".toList, "binary".toList] := by decide

end Verif.Main
