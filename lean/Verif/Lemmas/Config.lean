import Verif.Model.Config
import Verif.Lemmas.StdMap
import Verif.Lemmas.Text

/-! Lemmas on configurations. -/

namespace Verif.Config
open Verif Verif.Text

variable {τ : Type}

theorem set_unknown {c : Config τ} {k : Str} (h : c.template.get? k = none) (v : Param τ) :
    c.set k v = .throws .invalidArgument := by
  simp [Config.set, Config.setMove, h]

theorem set_known {c : Config τ} {k : Str} {d : Param τ} (h : c.template.get? k = some d) (v : Param τ) :
    c.set k v = if v.index ≠ d.index then .throws .invalidArgument
      else .ok ⟨c.params.set k v, c.template⟩ := by
  simp only [Config.set, Config.setMove, h]
  split <;> rfl

theorem set_eq_ok {c c' : Config τ} {k : Str} {v : Param τ} :
    c.set k v = .ok c' ↔
      (∃ d, c.template.get? k = some d ∧ v.index = d.index) ∧ c' = ⟨c.params.set k v, c.template⟩ := by
  cases h : c.template.get? k with
  | none => rw [set_unknown h]; simp
  | some d =>
    rw [set_known h]
    by_cases hi : v.index = d.index
    · simp [hi, eq_comm]
    · simp [hi]

theorem setText_eq_ok {stod : Str → Outcome τ} {c c' : Config τ} {k s : Str} :
    c.setText stod k s = .ok c' ↔
      ∃ d v, c.template.get? k = some d ∧ parseAs stod d s = .ok v ∧ v.index = d.index ∧
        c' = ⟨c.params.set k v, c.template⟩ := by
  simp only [Config.setText]
  cases h : c.template.get? k with
  | none => simp
  | some d =>
    simp only [Outcome.bind_eq_ok, set_eq_ok, h, Option.some.injEq]
    constructor
    · rintro ⟨v, hv, ⟨d', rfl, hi⟩, rfl⟩; exact ⟨d, v, rfl, hv, hi, rfl⟩
    · rintro ⟨d', v, rfl, hv, hi, rfl⟩; exact ⟨v, hv, ⟨d, rfl, hi⟩, rfl⟩

theorem parseAs_index {stod : Str → Outcome τ} {d v : Param τ} {s : Str} (h : parseAs stod d s = .ok v) :
    v.index = d.index := by
  cases d with
  | int i => simp only [parseAs, Outcome.map_eq_ok] at h; obtain ⟨_, _, rfl⟩ := h; rfl
  | dbl i => simp only [parseAs, Outcome.map_eq_ok] at h; obtain ⟨_, _, rfl⟩ := h; rfl
  | str i => simp only [parseAs] at h; cases h; rfl

/-- What an update with parameters does. -/
theorem update_eq_ok {c c' : Config τ} {m : SMap (Param τ)} (h : c.update m = .ok c') (hw : m.WF) :
    c'.template = c.template ∧
    (∀ k v, m.get? k = some v → ∃ d, c.template.get? k = some d ∧ v.index = d.index) ∧
    (∀ k, c'.params.get? k = (m.get? k).or (c.params.get? k)) := by
  induction m generalizing c with
  | nil => cases h; exact ⟨rfl, by simp [SMap.get?], by simp [SMap.get?]⟩
  | cons p m ih =>
    obtain ⟨n, v⟩ := p
    simp only [Config.update, Outcome.bind_eq_ok] at h
    obtain ⟨c1, h1, h2⟩ := h
    obtain ⟨⟨d, hd, hi⟩, rfl⟩ := set_eq_ok.1 h1
    have hw' := List.nodup_cons.1 hw
    obtain ⟨e1, e2, e3⟩ := ih h2 hw'.2
    refine ⟨e1, ?_, ?_⟩
    · intro k v' hk
      by_cases hn : n = k
      · subst hn
        simp only [SMap.get?_cons, if_true, Option.some.injEq] at hk
        subst hk; exact ⟨d, hd, hi⟩
      · simp only [SMap.get?_cons, hn, if_false] at hk
        exact e2 k v' hk
    · intro k
      rw [e3 k, SMap.get?_set]
      by_cases hn : n = k
      · subst hn
        have : SMap.get? m n = none := SMap.get?_eq_none.2 hw'.1
        simp [SMap.get?_cons, this]
      · simp [SMap.get?_cons, hn]

/-- An update with declared parameters of the declared types succeeds. -/
theorem update_ok {c : Config τ} {m : SMap (Param τ)}
    (h : ∀ p ∈ m, ∃ d, c.template.get? p.1 = some d ∧ p.2.index = d.index) : ∃ c', c.update m = .ok c' := by
  induction m generalizing c with
  | nil => exact ⟨c, rfl⟩
  | cons p m ih =>
    obtain ⟨n, v⟩ := p
    have h0 := h (n, v) List.mem_cons_self
    have h1 : c.set n v = .ok ⟨c.params.set n v, c.template⟩ := set_eq_ok.2 ⟨h0, rfl⟩
    simp only [Config.update, h1, Outcome.bind_ok]
    exact ih fun p hp => h p (List.mem_cons_of_mem _ hp)

/-- An update with a parameter that is not declared, or is of another type, throws. -/
theorem update_throws {c : Config τ} {m : SMap (Param τ)} {p : Str × Param τ} (hp : p ∈ m)
    (h : ¬ ∃ d, c.template.get? p.1 = some d ∧ p.2.index = d.index) :
    c.update m = .throws .invalidArgument := by
  induction m generalizing c with
  | nil => simp at hp
  | cons q m ih =>
    obtain ⟨n, v⟩ := q
    simp only [Config.update]
    by_cases hq : ∃ d, c.template.get? n = some d ∧ v.index = d.index
    · have h1 : c.set n v = .ok ⟨c.params.set n v, c.template⟩ := set_eq_ok.2 ⟨hq, rfl⟩
      rw [h1, Outcome.bind_ok]
      rcases List.mem_cons.1 hp with e | hp'
      · subst e; exact absurd hq h
      · exact ih hp' h
    · have : c.set n v = .throws .invalidArgument := by
        cases hn : c.template.get? n with
        | none => exact set_unknown hn v
        | some d =>
          rw [set_known hn, if_pos]
          intro e; exact hq ⟨d, hn, e⟩
      rw [this]; rfl

theorem updateText_eq_ok {stod : Str → Outcome τ} {c c' : Config τ} {m : SMap Str}
    (h : c.updateText stod m = .ok c') (hw : m.WF) :
    c'.template = c.template ∧
    (∀ k s, m.get? k = some s → ∃ d v, c.template.get? k = some d ∧ parseAs stod d s = .ok v ∧
      c'.params.get? k = some v) ∧
    (∀ k, m.get? k = none → c'.params.get? k = c.params.get? k) := by
  induction m generalizing c with
  | nil => cases h; exact ⟨rfl, by simp [SMap.get?], by simp [SMap.get?]⟩
  | cons p m ih =>
    obtain ⟨n, s⟩ := p
    simp only [Config.updateText, Outcome.bind_eq_ok] at h
    obtain ⟨c1, h1, h2⟩ := h
    obtain ⟨d, v, hd, hv, hi, rfl⟩ := setText_eq_ok.1 h1
    have hw' := List.nodup_cons.1 hw
    have hnone : SMap.get? m n = none := SMap.get?_eq_none.2 hw'.1
    obtain ⟨e1, e2, e3⟩ := ih h2 hw'.2
    refine ⟨e1, ?_, ?_⟩
    · intro k s' hk
      by_cases hn : n = k
      · subst hn
        simp only [SMap.get?_cons, if_true, Option.some.injEq] at hk
        subst hk
        refine ⟨d, v, hd, hv, ?_⟩
        rw [e3 n hnone, SMap.get?_set]; simp
      · simp only [SMap.get?_cons, hn, if_false] at hk
        exact e2 k s' hk
    · intro k hk
      by_cases hn : n = k
      · subst hn; simp [SMap.get?_cons] at hk
      · simp only [SMap.get?_cons, hn, if_false] at hk
        rw [e3 k hk, SMap.get?_set]; simp [hn]

theorem update_keys {c c' : Config τ} {m : SMap (Param τ)} (h : c.update m = .ok c')
    (hk : c.params.keys = c.template.keys) : c'.params.keys = c'.template.keys := by
  induction m generalizing c with
  | nil => cases h; exact hk
  | cons p m ih =>
    obtain ⟨n, v⟩ := p
    simp only [Config.update, Outcome.bind_eq_ok] at h
    obtain ⟨c1, h1, h2⟩ := h
    obtain ⟨⟨d, hd, hi⟩, rfl⟩ := set_eq_ok.1 h1
    refine ih h2 ?_
    have hn : n ∈ c.params.keys := by
      rw [hk]; exact SMap.get?_isSome.1 (by rw [hd]; rfl)
    show (c.params.set n v).keys = c.template.keys
    rw [SMap.keys_set_mem v hn]; exact hk

theorem updateText_keys {stod : Str → Outcome τ} {c c' : Config τ} {m : SMap Str}
    (h : c.updateText stod m = .ok c') (hk : c.params.keys = c.template.keys) :
    c'.params.keys = c'.template.keys := by
  induction m generalizing c with
  | nil => cases h; exact hk
  | cons p m ih =>
    obtain ⟨n, s⟩ := p
    simp only [Config.updateText, Outcome.bind_eq_ok] at h
    obtain ⟨c1, h1, h2⟩ := h
    obtain ⟨d, v, hd, hv, hi, rfl⟩ := setText_eq_ok.1 h1
    refine ih h2 ?_
    have hn : n ∈ c.params.keys := by
      rw [hk]; exact SMap.get?_isSome.1 (by rw [hd]; rfl)
    show (c.params.set n v).keys = c.template.keys
    rw [SMap.keys_set_mem v hn]; exact hk

/-- Reading a group keeps what could be read. -/
theorem readLoop_get? {g : SMap (Dataset τ)} (hw : g.WF) (m : SMap (Param τ)) (k : Str) :
    (readLoop m g).get? k =
      ((g.get? k).bind fun d => match readParam d with | .ok v => some v | _ => none).or (m.get? k) := by
  induction g generalizing m with
  | nil => simp [readLoop, SMap.get?]
  | cons p g ih =>
    obtain ⟨n, d⟩ := p
    have hw' := List.nodup_cons.1 hw
    have hnone : SMap.get? g n = none := SMap.get?_eq_none.2 hw'.1
    by_cases hn : n = k
    · subst hn
      cases d <;> simp [readLoop, readParam, ih hw'.2, SMap.get?_cons, hnone, SMap.get?_set]
    · cases d <;> simp [readLoop, readParam, ih hw'.2, SMap.get?_cons, hn, SMap.get?_set]

theorem readLoop_wf {g : SMap (Dataset τ)} {m : SMap (Param τ)} (h : m.WF) : (readLoop m g).WF := by
  induction g generalizing m with
  | nil => exact h
  | cons p g ih =>
    obtain ⟨n, d⟩ := p
    cases d <;> simp only [readLoop, readParam]
    · exact ih (SMap.wf_set h _ _)
    · exact ih (SMap.wf_set h _ _)
    · exact ih (SMap.wf_set h _ _)
    · exact ih h

theorem readConfig_wf (g : SMap (Dataset τ)) : (readConfig g).WF := readLoop_wf List.nodup_nil

/-- The value that a parameter has after it was written and read. -/
def stored : Param τ → Param τ
  | .str s => .str (if s.isEmpty then ['\x00'] else s)
  | v => v

theorem stored_index (v : Param τ) : (stored v).index = v.index := by cases v <;> rfl

theorem writeConfig_get? (c : Config τ) (k : Str) :
    (writeConfig c).get? k = (c.params.get? k).map writeParam :=
  SMap.get?_map c.params (fun _ => writeParam) k

theorem writeConfig_wf {c : Config τ} (h : c.params.WF) : (writeConfig c).WF := by
  unfold SMap.WF
  have : (writeConfig c).keys = c.params.keys := SMap.keys_map c.params (fun _ => writeParam)
  rw [this]; exact h

theorem readConfig_writeConfig {c : Config τ} (h : c.params.WF) (k : Str) :
    (readConfig (writeConfig c)).get? k = (c.params.get? k).map stored := by
  rw [readConfig, readLoop_get? (writeConfig_wf h), writeConfig_get?]
  cases c.params.get? k with
  | none => rfl
  | some v => cases v <;> rfl

end Verif.Config
