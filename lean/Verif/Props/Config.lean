import Verif.Spec.Config
import Verif.Lemmas.Config
import Verif.Model.Runs

/-!
# Properties of configurations (C40, C41, C42, C43)
-/

namespace Verif.Config
open Verif Verif.Text Verif.Runs

variable {σ τ μ : Type}

/-! ### C40 -/

/-- C40: every configuration made from a template has exactly the keys of the template, each with the
declared type, however it was updated. -/
theorem config_keys_types {stod : Str → Outcome τ} {t : Template τ} {c : Config τ}
    (h : Reachable stod t c) :
    c.template = t ∧ c.params.keys = t.keys ∧
    ∀ k, (c.params.get? k).map Param.index = (t.get? k).map Param.index := by
  have hset : ∀ {c : Config τ} {k : Str} {d v : Param τ}, c.template = t → c.params.keys = t.keys →
      (∀ k, (c.params.get? k).map Param.index = (t.get? k).map Param.index) →
      c.template.get? k = some d → v.index = d.index →
      (c.params.set k v).keys = t.keys ∧
      ∀ j, ((c.params.set k v).get? j).map Param.index = (t.get? j).map Param.index := by
    intro c k d v h1 h2 h3 hd hi
    refine ⟨?_, ?_⟩
    · rw [SMap.keys_set_mem, h2]
      rw [h2, ← h1]
      exact SMap.get?_isSome.1 (by rw [hd]; rfl)
    · intro j
      rw [SMap.get?_set]
      by_cases hj : k = j
      · subst hj
        rw [h1] at hd
        simp [hd, hi]
      · simp only [hj, if_false]; exact h3 j
  have hupd : ∀ (m : SMap (Param τ)) {c c' : Config τ}, c.template = t → c.params.keys = t.keys →
      (∀ k, (c.params.get? k).map Param.index = (t.get? k).map Param.index) → c.update m = .ok c' →
      c'.template = t ∧ c'.params.keys = t.keys ∧
      ∀ k, (c'.params.get? k).map Param.index = (t.get? k).map Param.index := by
    intro m
    induction m with
    | nil => intro c c' h1 h2 h3 h; cases h; exact ⟨h1, h2, h3⟩
    | cons p m ih =>
      intro c c' h1 h2 h3 h
      simp only [Config.update, Outcome.bind_eq_ok] at h
      obtain ⟨c1, e, h⟩ := h
      obtain ⟨⟨d, hd, hi⟩, rfl⟩ := set_eq_ok.1 e
      have := hset h1 h2 h3 hd hi
      exact ih (c := { params := c.params.set p.1 p.2, template := c.template }) h1 this.1 this.2 h
  have hupdT : ∀ (m : SMap Str) {c c' : Config τ}, c.template = t → c.params.keys = t.keys →
      (∀ k, (c.params.get? k).map Param.index = (t.get? k).map Param.index) →
      c.updateText stod m = .ok c' →
      c'.template = t ∧ c'.params.keys = t.keys ∧
      ∀ k, (c'.params.get? k).map Param.index = (t.get? k).map Param.index := by
    intro m
    induction m with
    | nil => intro c c' h1 h2 h3 h; cases h; exact ⟨h1, h2, h3⟩
    | cons p m ih =>
      intro c c' h1 h2 h3 h
      simp only [Config.updateText, Outcome.bind_eq_ok] at h
      obtain ⟨c1, e, h⟩ := h
      obtain ⟨d, v, hd, _, hi, rfl⟩ := setText_eq_ok.1 e
      have := hset h1 h2 h3 hd hi
      exact ih (c := { params := c.params.set p.1 v, template := c.template }) h1 this.1 this.2 h
  induction h with
  | create => exact ⟨rfl, rfl, fun _ => rfl⟩
  | set _ e ih =>
    obtain ⟨⟨d, hd, hi⟩, rfl⟩ := set_eq_ok.1 e
    have := hset ih.1 ih.2.1 ih.2.2 hd hi
    exact ⟨ih.1, this.1, this.2⟩
  | setText _ e ih =>
    obtain ⟨d, v, hd, _, hi, rfl⟩ := setText_eq_ok.1 e
    have := hset ih.1 ih.2.1 ih.2.2 hd hi
    exact ⟨ih.1, this.1, this.2⟩
  | update _ e ih => exact hupd _ ih.1 ih.2.1 ih.2.2 e
  | updateText _ e ih => exact hupdT _ ih.1 ih.2.1 ih.2.2 e

/-- C40: setting a parameter succeeds if and only if it is declared with the type of the value;
otherwise it throws `std::invalid_argument` and the object is left as it was. -/
theorem config_set_throws (c : Config τ) (k : Str) (v : Param τ) :
    (Declared c.template k v → ∃ c', c.set k v = .ok c') ∧
    (¬ Declared c.template k v → c.setMove k v = (.throws .invalidArgument, c)) := by
  constructor
  · intro h; exact ⟨_, set_eq_ok.2 ⟨h, rfl⟩⟩
  · intro h
    cases hk : c.template.get? k with
    | none => simp [Config.setMove, hk]
    | some d =>
      simp only [Config.setMove, hk]
      rw [if_pos]
      intro e; exact h ⟨d, hk, e⟩

/-- C40: an update succeeds if and only if all of its parameters are declared with their types. -/
theorem config_update_throws (c : Config τ) (m : SMap (Param τ)) :
    ((∀ p ∈ m, Declared c.template p.1 p.2) → ∃ c', c.update m = .ok c') ∧
    (¬ (∀ p ∈ m, Declared c.template p.1 p.2) → c.update m = .throws .invalidArgument) := by
  constructor
  · exact update_ok
  · intro h
    simp only [not_forall] at h
    obtain ⟨p, hp, hn⟩ := h
    exact update_throws hp hn

/-- C40: after any history of calls of `set`, successful or not, reading a parameter gives the last value
set that has the declared type, else the default; a parameter that is not in the template throws. -/
theorem config_get_last (t : Template τ) (h : List (Str × Param τ)) (k : Str) :
    (history (Template.create t) h).get k =
      match t.get? k with
      | none => .throws .invalidArgument
      | some d => .ok (lastValue k d h) := by
  have key : ∀ (h : List (Str × Param τ)) (c : Config τ),
      (∀ k, (c.params.get? k).map Param.index = (c.template.get? k).map Param.index) →
      (history c h).get k =
        match c.params.get? k with
        | none => .throws .invalidArgument
        | some d => .ok (lastValue k d h) := by
    intro h
    induction h with
    | nil =>
      intro c hc
      have := hc k
      simp only [history, Config.get]
      cases hp : c.params.get? k <;> cases ht : c.template.get? k <;> simp [hp, ht] at this <;> rfl
    | cons p h ih =>
      intro c hc
      obtain ⟨j, v⟩ := p
      simp only [history]
      cases hj : c.template.get? j with
      | none =>
        rw [set_unknown hj]
        have hjp : c.params.get? j = none := by have := hc j; rw [hj] at this; simpa using this
        simp only [ih c hc]
        cases hp : c.params.get? k with
        | none => rfl
        | some d =>
          have : j ≠ k := by rintro rfl; rw [hjp] at hp; cases hp
          simp [lastValue, this]
      | some d0 =>
        rw [set_known hj]
        have hjp := hc j
        rw [hj] at hjp
        obtain ⟨d1, hd1, hi1⟩ : ∃ d1, c.params.get? j = some d1 ∧ d1.index = d0.index := by
          cases hp : c.params.get? j with
          | none => rw [hp] at hjp; simp at hjp
          | some d1 => rw [hp] at hjp; exact ⟨d1, rfl, by simpa using hjp⟩
        by_cases hi : v.index = d0.index
        · simp only [hi, ne_eq, not_true, if_false]
          have hc' : ∀ k, ((c.params.set j v).get? k).map Param.index = (c.template.get? k).map Param.index := by
            intro k
            rw [SMap.get?_set]
            by_cases hjk : j = k
            · subst hjk; simp [hj, hi]
            · simp only [hjk, if_false]; exact hc k
          rw [ih _ hc']
          simp only [SMap.get?_set]
          by_cases hjk : j = k
          · subst hjk
            simp [hd1, lastValue, hi1, hi]
          · simp only [hjk, if_false]
            cases hp : c.params.get? k with
            | none => rfl
            | some d => simp [lastValue, hjk]
        · simp only [ne_eq, hi, not_false_eq_true, if_true, ih c hc]
          cases hp : c.params.get? k with
          | none => rfl
          | some d =>
            by_cases hjk : j = k
            · subst hjk
              rw [hd1] at hp; cases hp
              simp [lastValue, hi1, hi]
            · simp [lastValue, hjk]
  exact key h (Template.create t) fun _ => rfl

/-- A template with an integer, a real and a string parameter. -/
def exTemplate : Template Nat :=
  Template.item (Template.item (Template.item [] "N".toList (.int 256)) "cpi".toList (.dbl 7))
    "restart".toList (.str [])

example : (history (Template.create exTemplate)
    [("N".toList, .int 3), ("N".toList, .str "x".toList), ("M".toList, .int 1), ("cpi".toList, .dbl 9)]).get
      "N".toList = .ok (.int 3) := by
  rw [config_get_last]; decide

example : Reachable (fun _ => .ok 1) exTemplate ⟨exTemplate.set "N".toList (.int 12), exTemplate⟩ :=
  .setText .create (k := "N".toList) (s := "12".toList)
    (setText_eq_ok.2 ⟨.int 256, .int 12, by decide, by decide, rfl, rfl⟩)

example : ¬ Declared exTemplate "N".toList (.str []) := by
  rintro ⟨d, hd, hi⟩
  have : exTemplate.get? "N".toList = some (.int 256) := by decide
  rw [this] at hd; cases hd; cases hi

/-! ### C41 -/

/-- C41: when a run is restarted, each parameter has the value from the command line if given there
(converted to the declared type), else the value stored in the restart file, else the default. -/
theorem config_precedence {stod : Str → Outcome τ} {t : Template τ}
    {fs : Str → Option (Checkpoint σ τ μ)} {group f : Str} {args : SMap Str} {ck : Checkpoint σ τ μ}
    {g : SMap (Dataset τ)} {c : Config τ} (hargs : args.WF)
    (hr : args.get? kRestart = some f) (hf : fs f = some ck) (hg : ck.get? group = some (.config g))
    (h : createRunConfig stod t fs group args = .ok c) :
    (∀ k s, args.get? k = some s → ∃ d v, t.get? k = some d ∧ parseAs stod d s = .ok v ∧
      c.get k = .ok v) ∧
    (∀ k v, args.get? k = none → (readConfig g).get? k = some v → c.get k = .ok v) ∧
    (∀ k d, args.get? k = none → (readConfig g).get? k = none → t.get? k = some d → c.get k = .ok d) ∧
    (∀ k, t.get? k = none → c.get k = .throws .invalidArgument) := by
  simp only [createRunConfig, hr, hf, openConfig, hg, Outcome.bind_ok, Outcome.bind_eq_ok] at h
  obtain ⟨c1, h1, h2⟩ := h
  obtain ⟨a1, a2, a3⟩ := update_eq_ok h1 (readConfig_wf g)
  obtain ⟨b1, b2, b3⟩ := updateText_eq_ok h2 hargs
  have ht : c.template = t := by rw [b1, a1]; rfl
  refine ⟨?_, ?_, ?_, ?_⟩
  · intro k s hk
    obtain ⟨d, v, e1, e2, e3⟩ := b2 k s hk
    rw [a1] at e1
    refine ⟨d, v, e1, e2, ?_⟩
    have e1' : t.get? k = some d := e1
    simp [Config.get, ht, e1', e3]
  · intro k v hk hv
    obtain ⟨d, hd, _⟩ := a2 k v hv
    have hd' : t.get? k = some d := hd
    simp [Config.get, ht, hd', b3 k hk, a3 k, hv]
  · intro k d hk hv hd
    have hd' : (Template.create t).params.get? k = some d := hd
    simp [Config.get, ht, hd, b3 k hk, a3 k, hv, hd']
  · intro k hk
    simp [Config.get, ht, hk]

/-- C41: without a restart, the command line overrides the defaults. -/
theorem config_precedence_fresh {stod : Str → Outcome τ} {t : Template τ}
    {fs : Str → Option (Checkpoint σ τ μ)} {group : Str} {args : SMap Str} {c : Config τ} (hargs : args.WF)
    (hr : args.get? kRestart = none) (h : createRunConfig stod t fs group args = .ok c) :
    (∀ k s, args.get? k = some s → ∃ d v, t.get? k = some d ∧ parseAs stod d s = .ok v ∧
      c.get k = .ok v) ∧
    (∀ k d, args.get? k = none → t.get? k = some d → c.get k = .ok d) := by
  simp only [createRunConfig, hr] at h
  obtain ⟨b1, b2, b3⟩ := updateText_eq_ok h hargs
  have ht : c.template = t := b1
  refine ⟨?_, ?_⟩
  · intro k s hk
    obtain ⟨d, v, e1, e2, e3⟩ := b2 k s hk
    have e1' : t.get? k = some d := e1
    exact ⟨d, v, e1', e2, by simp [Config.get, ht, e1', e3]⟩
  · intro k d hk hd
    have hd' : (Template.create t).params.get? k = some d := hd
    simp [Config.get, ht, hd, b3 k hk, hd']

/-- C41: parameters that are stored in the file but not declared, or declared with another type, make the
restart fail. -/
theorem config_restart_unknown {stod : Str → Outcome τ} {t : Template τ}
    {fs : Str → Option (Checkpoint σ τ μ)} {group f : Str} {args : SMap Str} {ck : Checkpoint σ τ μ}
    {g : SMap (Dataset τ)} (hr : args.get? kRestart = some f) (hf : fs f = some ck)
    (hg : ck.get? group = some (.config g)) {k : Str} {v : Param τ}
    (hv : (readConfig g).get? k = some v) (hk : ¬ Declared t k v) :
    createRunConfig stod t fs group args = .throws .invalidArgument := by
  simp only [createRunConfig, hr, hf, openConfig, hg, Outcome.bind_ok]
  have : (Template.create t).update (readConfig g) = .throws .invalidArgument :=
    update_throws (SMap.mem_of_get? hv) hk
  rw [this]; rfl

/-- A restart file, and arguments that override one of its parameters. -/
def exFile : Checkpoint Nat Nat Nat :=
  [(kRunConfig, .config [("N".toList, .int 99), ("cpi".toList, .dbl 5), ("restart".toList, .chars ['\x00'])])]

def exArgs : SMap Str := [("restart".toList, "a.h5".toList), ("N".toList, "12".toList)]

example : ∃ c, createRunConfig (fun _ => .throws .invalidArgument) exTemplate
    (fun f => if f = "a.h5".toList then some exFile else none) kRunConfig exArgs = .ok c ∧
    c.get "N".toList = .ok (.int 12) ∧ c.get "cpi".toList = .ok (.dbl 5) ∧
    c.get "restart".toList = .ok (.str "a.h5".toList) :=
  ⟨⟨[("N".toList, .int 12), ("cpi".toList, .dbl 5), ("restart".toList, .str "a.h5".toList)], exTemplate⟩,
    by rfl, by decide, by decide, by decide⟩

/-! ### C42 -/

/-- The value of a key in an argument list: that of the first argument `key=value`. -/
def argValue (argv : List Str) (k v : Str) : Prop := k ++ '=' :: v ∈ argv ∧ '=' ∉ k

private theorem split_eq {arg : Str} (h : '=' ∈ arg) :
    arg = before '=' arg ++ '=' :: eraseThrough '=' arg ∧ '=' ∉ before '=' arg := by
  induction arg with
  | nil => simp at h
  | cons c s ih =>
    by_cases hc : c = '='
    · subst hc; simp [before, eraseThrough]
    · have hs : '=' ∈ s := by
        rcases List.mem_cons.1 h with e | h
        · exact absurd e.symm hc
        · exact h
      obtain ⟨e1, e2⟩ := ih hs
      have hb : before '=' (c :: s) = c :: before '=' s := by simp [before, hc]
      have he : eraseThrough '=' (c :: s) = eraseThrough '=' s := by
        simp only [eraseThrough, h, hs, if_true]; simp [hc]
      rw [hb, he]
      refine ⟨by rw [List.cons_append, ← e1], ?_⟩
      simp only [List.mem_cons, not_or]
      exact ⟨fun e => hc e.symm, e2⟩

private theorem split_unique {k v k' v' : Str} (hk : '=' ∉ k) (hk' : '=' ∉ k')
    (h : k ++ '=' :: v = k' ++ '=' :: v') : k = k' ∧ v = v' := by
  have h1 := congrArg (before '=') h
  have h2 := congrArg (eraseThrough '=') h
  rw [before_append hk, before_append hk'] at h1
  rw [erase_append hk, erase_append hk'] at h2
  exact ⟨h1, h2⟩

private theorem argvLoop_spec (argv : List Str) (items : SMap Str) (hw : items.WF) :
    (∀ m, argvLoop items argv = .ok m → m.WF ∧
      ∀ k v, m.get? k = some v ↔ items.get? k = some v ∨ argValue argv k v) ∧
    ((∃ m, argvLoop items argv = .ok m) ∨ argvLoop items argv = .throws .invalidArgument) ∧
    (argvLoop items argv = .throws .invalidArgument ↔
      (∃ k, (∃ v, argValue argv k v) ∧ k ∈ items.keys) ∨
      ¬ ((argv.filter ('=' ∈ ·)).map (before '=')).Nodup) := by
  induction argv generalizing items with
  | nil =>
    refine ⟨?_, .inl ⟨items, rfl⟩, ?_⟩
    · intro m h; cases h
      exact ⟨hw, by simp [argValue]⟩
    · simp [argvLoop, argValue]
  | cons a as ih =>
    by_cases ha : '=' ∈ a
    · obtain ⟨ea, na⟩ := split_eq ha
      have hval : ∀ k v, argValue (a :: as) k v ↔
          (k = before '=' a ∧ v = eraseThrough '=' a) ∨ argValue as k v := by
        intro k v
        simp only [argValue, List.mem_cons]
        constructor
        · rintro ⟨e | h, hk⟩
          · rw [ea] at e
            exact .inl (split_unique hk na e)
          · exact .inr ⟨h, hk⟩
        · rintro (⟨rfl, rfl⟩ | ⟨h, hk⟩)
          · exact ⟨.inl ea.symm, na⟩
          · exact ⟨.inr h, hk⟩
      simp only [argvLoop, argvStep, ha, if_true]
      cases hi : items.get? (before '=' a) with
      | some w =>
        refine ⟨fun m h => by simp at h, .inr rfl, ?_⟩
        simp only [Outcome.bind_throws, true_iff]
        refine .inl ⟨before '=' a, ⟨_, (hval _ _).2 (.inl ⟨rfl, rfl⟩)⟩, ?_⟩
        exact SMap.get?_isSome.1 (by rw [hi]; rfl)
      | none =>
        have hnk : before '=' a ∉ items.keys := SMap.get?_eq_none.1 hi
        simp only [Outcome.bind_ok]
        obtain ⟨i1, i2, i3⟩ := ih _ (SMap.wf_set hw (before '=' a) (eraseThrough '=' a))
        refine ⟨?_, i2, ?_⟩
        · intro m hm
          obtain ⟨hm1, hm2⟩ := i1 m hm
          refine ⟨hm1, fun k v => ?_⟩
          rw [hm2, hval, SMap.get?_set]
          by_cases hk : before '=' a = k
          · subst hk
            simp only [if_true, Option.some.injEq, hi, true_and]
            constructor
            · rintro (rfl | h)
              · exact .inr (.inl rfl)
              · exact .inr (.inr h)
            · rintro (h | rfl | h)
              · cases h
              · exact .inl rfl
              · exact .inr h
          · simp only [hk, if_false]
            have : k ≠ before '=' a := fun e => hk e.symm
            simp [this]
        · rw [i3]
          have hf : (a :: as).filter ('=' ∈ ·) = a :: as.filter ('=' ∈ ·) := by
            rw [List.filter_cons]; simp [ha]
          rw [hf, List.map_cons, List.nodup_cons]
          have hmem : before '=' a ∈ (as.filter ('=' ∈ ·)).map (before '=') ↔
              ∃ v, argValue as (before '=' a) v := by
            simp only [List.mem_map, List.mem_filter, decide_eq_true_eq]
            constructor
            · rintro ⟨b, ⟨hb, hb'⟩, e⟩
              obtain ⟨eb, nb⟩ := split_eq hb'
              exact ⟨eraseThrough '=' b, by rw [← e, ← eb]; exact hb, by rw [← e]; exact nb⟩
            · rintro ⟨v, hv, hn⟩
              refine ⟨_, ⟨hv, by simp⟩, before_append hn⟩
          rw [hmem]
          constructor
          · rintro (⟨k, ⟨v, hv⟩, hk⟩ | hn)
            · rw [SMap.keys_set_not_mem _ hnk, List.mem_append, List.mem_singleton] at hk
              rcases hk with hk | rfl
              · exact .inl ⟨k, ⟨v, (hval _ _).2 (.inr hv)⟩, hk⟩
              · exact .inr fun h => h.1 ⟨v, hv⟩
            · exact .inr fun h => hn h.2
          · rintro (⟨k, ⟨v, hv⟩, hk⟩ | hn)
            · rcases (hval _ _).1 hv with ⟨rfl, rfl⟩ | hv
              · exact absurd hk hnk
              · refine .inl ⟨k, ⟨v, hv⟩, ?_⟩
                rw [SMap.keys_set_not_mem _ hnk]; exact List.mem_append_left _ hk
            · by_cases h : ∃ v, argValue as (before '=' a) v
              · refine .inl ⟨_, h, ?_⟩
                rw [SMap.keys_set_not_mem _ hnk]; simp
              · exact .inr fun h' => hn ⟨h, h'⟩
    · have hval : ∀ k v, argValue (a :: as) k v ↔ argValue as k v := by
        intro k v
        simp only [argValue, List.mem_cons]
        constructor
        · rintro ⟨e | h, hk⟩
          · exact absurd (by rw [← e]; simp) ha
          · exact ⟨h, hk⟩
        · rintro ⟨h, hk⟩; exact ⟨.inr h, hk⟩
      simp only [argvLoop, argvStep, ha, if_false, Outcome.bind_ok]
      obtain ⟨i1, i2, i3⟩ := ih items hw
      refine ⟨?_, i2, ?_⟩
      · intro m hm; obtain ⟨h1, h2⟩ := i1 m hm
        exact ⟨h1, fun k v => by rw [h2, hval]⟩
      · rw [i3]
        have hf : (a :: as).filter ('=' ∈ ·) = as.filter ('=' ∈ ·) := by
          rw [List.filter_cons]; simp [ha]
        rw [hf]
        simp only [hval]

/-- C42: the map made from the arguments has exactly the pairs `key=value` given, split at the first
`=`; arguments without `=` do not count; it throws if and only if two arguments have the same key. -/
theorem argv_map (argv : List Str) :
    (∀ m, argvToStringMap argv = .ok m → m.WF ∧
      ∀ k v, m.get? k = some v ↔ k ++ '=' :: v ∈ argv ∧ '=' ∉ k) ∧
    ((∃ m, argvToStringMap argv = .ok m) ↔ ((argv.filter ('=' ∈ ·)).map (before '=')).Nodup) ∧
    (¬ ((argv.filter ('=' ∈ ·)).map (before '=')).Nodup →
      argvToStringMap argv = .throws .invalidArgument) := by
  obtain ⟨h1, h2, h3⟩ := argvLoop_spec argv [] List.nodup_nil
  refine ⟨?_, ?_, ?_⟩
  · intro m hm
    obtain ⟨a, b⟩ := h1 m hm
    exact ⟨a, fun k v => by rw [b]; simp [SMap.get?, argValue]⟩
  · constructor
    · rintro ⟨m, hm⟩
      by_contra hn
      have := h3.2 (.inr hn)
      rw [argvToStringMap] at hm
      rw [hm] at this; cases this
    · intro hn
      rcases h2 with h | h
      · exact h
      · rcases h3.1 h with ⟨k, _, hk⟩ | hn'
        · simp [SMap.keys] at hk
        · exact absurd hn hn'
  · intro hn; exact h3.2 (.inr hn)

example : argvToStringMap ["mara".toList, "binary".toList, "a=b=c".toList, "N=".toList] =
    .ok [("a".toList, "b=c".toList), ("N".toList, [])] := by decide

example : argvToStringMap ["a=1".toList, "b=1".toList, "a=2".toList] = .throws .invalidArgument := by decide

/-! ### C43 -/

/-- C43 (partial): a configuration without empty strings reads back identically. -/
theorem config_file_round_trip_partial {c : Config τ} (hw : c.params.WF)
    (hs : ∀ k, c.params.get? k ≠ some (.str [])) (k : Str) :
    (readConfig (writeConfig c)).get? k = c.params.get? k := by
  rw [readConfig_writeConfig hw]
  cases h : c.params.get? k with
  | none => rfl
  | some v =>
    cases v with
    | int i => rfl
    | dbl x => rfl
    | str s =>
      cases s with
      | nil => exact absurd h (hs k)
      | cons a s => rfl

/-- C43 is violated by the empty string, which reads back as a string of one NUL character, in every
configuration that has one. -/
theorem config_file_round_trip_violated {c : Config τ} (hw : c.params.WF) {k : Str}
    (h : c.params.get? k = some (.str [])) :
    (readConfig (writeConfig c)).get? k = some (.str ['\x00']) ∧
    (readConfig (writeConfig c)).get? k ≠ c.params.get? k := by
  rw [readConfig_writeConfig hw, h]
  exact ⟨rfl, by simp [stored]⟩

example : SMap.WF (Template.create exTemplate).params := by decide
example : (Template.create exTemplate).params.get? kRestart = some (.str []) := by decide
example : ∃ c : Config Nat, c.params.WF ∧ (∀ k, c.params.get? k ≠ some (.str [])) ∧
    c.params.get? "outdir".toList = some (.str ".".toList) := by
  refine ⟨⟨[("outdir".toList, .str ".".toList)], []⟩, by decide, fun k => ?_, by decide⟩
  simp only [SMap.get?]
  split <;> simp

/-- `config_keys_types`: after a value has been set from text. -/
example : (⟨exTemplate.set "N".toList (.int 12), exTemplate⟩ : Config Nat).params.keys = exTemplate.keys :=
  (config_keys_types (stod := fun _ => .ok 1) (.setText .create (k := "N".toList) (s := "12".toList)
    (setText_eq_ok.2 ⟨.int 256, .int 12, by decide, by decide, rfl, rfl⟩))).2.1

/-- `config_set_throws`, `config_update_throws`: a text where an integer is declared, and an unknown key. -/
example : (Template.create exTemplate).setMove "N".toList (.str []) = (.throws .invalidArgument, Template.create exTemplate) :=
  (config_set_throws _ _ _).2 (by
    rintro ⟨d, hd, hi⟩
    have : (Template.create exTemplate).template.get? "N".toList = some (.int 256) := by decide
    rw [this] at hd; cases hd; cases hi)
example : (Template.create exTemplate).update [("N".toList, .int 3), ("M".toList, .int 3)] = .throws .invalidArgument :=
  (config_update_throws _ _).2 (fun h => by
    obtain ⟨d, hd, _⟩ := h ("M".toList, .int 3) (by simp)
    have : (Template.create exTemplate).template.get? "M".toList = none := by decide
    rw [this] at hd; cases hd)

/-- `config_precedence`, `config_precedence_fresh`: the command line wins over the file, the file over the default. -/
example (c : Config Nat) (h : createRunConfig (fun _ => .throws .invalidArgument) exTemplate
    (fun f => if f = "a.h5".toList then some exFile else none) kRunConfig exArgs = .ok c) :
    ∀ k, exTemplate.get? k = none → c.get k = .throws .invalidArgument :=
  (config_precedence (by decide) (f := "a.h5".toList) (by decide) (if_pos rfl) rfl h).2.2.2
example : ∃ c : Config Nat, createRunConfig (fun _ => .throws .invalidArgument) exTemplate
    (fun _ => (none : Option (Checkpoint Nat Nat Nat))) kRunConfig [("N".toList, "12".toList)] = .ok c ∧
    c.get "cpi".toList = .ok ((exTemplate.get? "cpi".toList).getD (.int 0)) := by
  refine ⟨⟨exTemplate.set "N".toList (.int 12), exTemplate⟩, rfl, ?_⟩
  exact (config_precedence_fresh (stod := fun _ => .throws .invalidArgument) (group := kRunConfig)
    (fs := fun _ => (none : Option (Checkpoint Nat Nat Nat))) (t := exTemplate) (args := [("N".toList, "12".toList)])
    (by decide) (by decide) rfl).2 _ _ (by decide) rfl

/-- `config_file_round_trip_partial`. -/
example (k : Str) : (readConfig (writeConfig (⟨[("N".toList, .int 12), ("outdir".toList, .str ".".toList)], []⟩ : Config Nat))).get? k =
    SMap.get? [("N".toList, (.int 12 : Param Nat)), ("outdir".toList, .str ".".toList)] k :=
  config_file_round_trip_partial (by decide) (fun k => by
    simp only [SMap.get?]
    repeat' split
    all_goals simp) k

end Verif.Config
