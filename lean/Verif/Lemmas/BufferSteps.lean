import Verif.Lemmas.Buffers

/-! # Lemmas about buffers: every operation does what it should -/

namespace Verif.Buffers

variable {α : Type}

/-- The state of the memory has the values `V`; `L` are the values of the buffers. -/
structure Inv (st : State α) (V : Values α) (L : Place → Option (List α)) : Prop where
  mem : Mem st.heap st.buffers L
  var : ∀ x, L (.var x) = (V.unique x).map Prod.snd
  sizes : ∀ x, st.sizes x = (V.unique x).map Prod.fst
  gone : ∀ s, st.shared s = none → V.shared s = none
  here : ∀ s n c, st.shared s = some (n, c) → ∃ l, L (.held c) = some l ∧ V.shared s = some (n, l)
  count : ∀ c l, L (.held c) = some l → 1 ≤ st.counts c ∧ {s | ∃ n, st.shared s = some (n, c)}.encard = st.counts c
  fresh : ∀ c, st.next ≤ c → L (.held c) = none

theorem Inv.unique {st : State α} {V L} (H : Inv st V L) {h B S L' U} (mem : Mem h B L') (held : ∀ c, L' (.held c) = L (.held c))
    (var : ∀ x, L' (.var x) = (U x).map Prod.snd) (sizes : ∀ x, S x = (U x).map Prod.fst) :
    Inv { st with heap := h, buffers := B, sizes := S } { V with unique := U } L' where
  mem := mem
  var := var
  sizes := sizes
  gone := H.gone
  here s n c hs := by rw [held]; exact H.here s n c hs
  count c l hc := by rw [held] at hc; exact H.count c l hc
  fresh c hc := by rw [held]; exact H.fresh c hc

theorem Inv.array {st : State α} {V L} (H : Inv st V L) {x} (hx : V.unique x ≠ none) :
    ∃ b, st.array x = .ok ((V.get x).1, b) ∧ st.buffers (.var x) = some b ∧ L (.var x) = some (V.get x).2 ∧ V.unique x = some (V.get x)
      ∧ Holds st.heap b (V.get x).2 := by
  obtain ⟨⟨n, l⟩, hv⟩ := Option.ne_none_iff_exists'.1 hx
  have hg : V.get x = (n, l) := by simp [Values.get, hv]
  have hL : L (.var x) = some l := by rw [H.var, hv]; rfl
  obtain ⟨b, hb, hh⟩ := H.mem.here _ _ hL
  refine ⟨b, ?_, hb, by rw [hg]; exact hL, by rw [hg]; exact hv, by rw [hg]; exact hh⟩
  have hs := H.sizes x
  rw [hv] at hs
  simp only [State.array, hs, Option.map_some, hb, hg]

theorem Inv.sharedArray {st : State α} {V L} (H : Inv st V L) {s} (hs : V.shared s ≠ none) :
    ∃ c b, st.sharedArray s = .ok ((V.getShared s).1, c, b) ∧ st.shared s = some ((V.getShared s).1, c) ∧ st.buffers (.held c) = some b
      ∧ L (.held c) = some (V.getShared s).2 ∧ V.shared s = some (V.getShared s) ∧ Holds st.heap b (V.getShared s).2 := by
  cases e : st.shared s with
  | none => exact absurd (H.gone s e) hs
  | some nc =>
    obtain ⟨n, c⟩ := nc
    obtain ⟨l, hl, hv⟩ := H.here s n c e
    have hg : V.getShared s = (n, l) := by simp [Values.getShared, hv]
    obtain ⟨b, hb, hh⟩ := H.mem.here _ _ hl
    refine ⟨c, b, ?_, by rw [hg], hb, by rw [hg]; exact hl, by rw [hg]; exact hv, by rw [hg]; exact hh⟩
    simp only [State.sharedArray, e, hb, hg]

theorem Inv.no_size {st : State α} {V L} (H : Inv st V L) {x} (hx : V.unique x = none) : st.sizes x = none ∧ L (.var x) = none := by
  constructor
  · rw [H.sizes, hx]; rfl
  · rw [H.var, hx]; rfl

theorem Inv.no_shared {st : State α} {V L} (H : Inv st V L) {s} (hs : V.shared s = none) : st.shared s = none := by
  cases e : st.shared s with
  | none => rfl
  | some nc =>
    obtain ⟨l, _, hv⟩ := H.here s nc.1 nc.2 e
    rw [hs] at hv; cases hv

/-- A new buffer, to which one new shared array refers. -/
theorem Inv.first {st : State α} {V L} (H : Inv st V L) {h B L' U s n l} (hs : V.shared s = none) (mem : Mem h B L')
    (held : ∀ c, c ≠ st.next → L' (.held c) = L (.held c)) (new : L' (.held st.next) = some l)
    (var : ∀ x, L' (.var x) = (U x).map Prod.snd) (sizes : ∀ x, st.sizes x = (U x).map Prod.fst) :
    Inv { st with heap := h, buffers := B, counts := Function.update st.counts st.next 1, shared := Function.update st.shared s (some (n, st.next)), next := st.next + 1 }
      ⟨U, Function.update V.shared s (some (n, l))⟩ L' where
  mem := mem
  var := var
  sizes := sizes
  gone t ht := by
    by_cases e : t = s
    · subst e; simp at ht
    · simp only [Function.update_of_ne e] at ht ⊢; exact H.gone t ht
  here t m c ht := by
    by_cases e : t = s
    · subst e; simp only [Function.update_self, Option.some.injEq, Prod.mk.injEq] at ht ⊢
      obtain ⟨rfl, rfl⟩ := ht
      exact ⟨l, new, rfl, rfl⟩
    · simp only [Function.update_of_ne e] at ht ⊢
      obtain ⟨l', hl', hv⟩ := H.here t m c ht
      refine ⟨l', ?_, hv⟩
      rw [held]
      · exact hl'
      · rintro rfl; rw [H.fresh _ le_rfl] at hl'; cases hl'
  count c l' hc := by
    have none : ∀ t m, st.shared t ≠ some (m, st.next) := fun t m ht => by
      obtain ⟨l', hl', _⟩ := H.here t m _ ht
      rw [H.fresh _ le_rfl] at hl'; cases hl'
    by_cases e : c = st.next
    · subst e
      refine ⟨by simp, ?_⟩
      have : {t | ∃ m, Function.update st.shared s (some (n, st.next)) t = some (m, st.next)} = {s} := by
        ext t
        simp only [Set.mem_setOf_eq, Set.mem_singleton_iff]
        constructor
        · rintro ⟨m, hm⟩
          by_contra e
          rw [Function.update_of_ne e] at hm
          exact none t m hm
        · rintro rfl; exact ⟨n, by simp⟩
      simp only [this, Set.encard_singleton, Function.update_self]; rfl
    · rw [held c e] at hc
      simp only [Function.update_of_ne e]
      have : {t | ∃ m, Function.update st.shared s (some (n, st.next)) t = some (m, c)} = {t | ∃ m, st.shared t = some (m, c)} := by
        ext t
        simp only [Set.mem_setOf_eq]
        by_cases e' : t = s
        · subst e'
          simp only [Function.update_self, H.no_shared hs, Option.some.injEq, Prod.mk.injEq]
          exact ⟨fun ⟨m, h⟩ => absurd h.2.symm e, fun ⟨m, h⟩ => by cases h⟩
        · rw [Function.update_of_ne e']
      rw [this]; exact H.count c l' hc
  fresh c hc := by
    have hc' : st.next + 1 ≤ c := hc
    rw [held c (by omega)]; exact H.fresh c (by omega)

/-- One more shared array refers to a buffer. -/
theorem Inv.another {st : State α} {V L} (H : Inv st V L) {s c n l} (hs : V.shared s = none) (hc : L (.held c) = some l) :
    Inv { st with counts := Function.update st.counts c (st.counts c + 1), shared := Function.update st.shared s (some (n, c)) }
      { V with shared := Function.update V.shared s (some (n, l)) } L where
  mem := H.mem
  var := H.var
  sizes := H.sizes
  gone t ht := by
    by_cases e : t = s
    · subst e; simp at ht
    · simp only [Function.update_of_ne e] at ht ⊢; exact H.gone t ht
  here t m d ht := by
    by_cases e : t = s
    · subst e; simp only [Function.update_self, Option.some.injEq, Prod.mk.injEq] at ht ⊢
      obtain ⟨rfl, rfl⟩ := ht
      exact ⟨l, hc, rfl, rfl⟩
    · simp only [Function.update_of_ne e] at ht ⊢; exact H.here t m d ht
  count d l' hd := by
    by_cases e : d = c
    · subst e
      simp only [Function.update_self]
      refine ⟨by omega, ?_⟩
      have : {t | ∃ m, Function.update st.shared s (some (n, d)) t = some (m, d)} = insert s {t | ∃ m, st.shared t = some (m, d)} := by
        ext t
        simp only [Set.mem_setOf_eq, Set.mem_insert_iff]
        by_cases e : t = s
        · subst e; simp
        · rw [Function.update_of_ne e]; simp [e]
      rw [this, Set.encard_insert_of_notMem (by simp [H.no_shared hs]), (H.count d l' hd).2]; rfl
    · simp only [Function.update_of_ne e]
      have : {t | ∃ m, Function.update st.shared s (some (n, c)) t = some (m, d)} = {t | ∃ m, st.shared t = some (m, d)} := by
        ext t
        simp only [Set.mem_setOf_eq]
        by_cases e' : t = s
        · subst e'
          simp only [Function.update_self, H.no_shared hs, Option.some.injEq, Prod.mk.injEq]
          exact ⟨fun ⟨m, h⟩ => absurd h.2.symm e, fun ⟨m, h⟩ => by cases h⟩
        · rw [Function.update_of_ne e']
      rw [this]; exact H.count d l' hd
  fresh := H.fresh

/-- How many refer to a buffer when one of them goes. -/
theorem Inv.less {st : State α} {V L} (H : Inv st V L) {s c n l} (hs : st.shared s = some (n, c)) (hc : L (.held c) = some l) :
    {t | ∃ m, Function.update st.shared s none t = some (m, c)}.encard = ((st.counts c - 1 : ℕ) : ℕ∞)
      ∧ ∀ d, d ≠ c → {t | ∃ m, Function.update st.shared s none t = some (m, d)} = {t | ∃ m, st.shared t = some (m, d)} := by
  constructor
  · have : {t | ∃ m, Function.update st.shared s none t = some (m, c)} = {t | ∃ m, st.shared t = some (m, c)} \ {s} := by
      ext t
      simp only [Set.mem_setOf_eq, Set.mem_diff, Set.mem_singleton_iff]
      by_cases e : t = s
      · subst e; simp
      · rw [Function.update_of_ne e]; simp [e]
    rw [this]
    obtain ⟨h1, h2⟩ := H.count c l hc
    have h3 := Set.encard_diff_singleton_add_one (s := {t | ∃ m, st.shared t = some (m, c)}) (a := s) ⟨n, hs⟩
    rw [h2] at h3
    have h4 : ((st.counts c : ℕ) : ℕ∞) = ((st.counts c - 1 : ℕ) : ℕ∞) + 1 := by
      rw [← Nat.cast_succ]; congr 1; omega
    rw [h4] at h3
    exact WithTop.add_right_cancel (ENat.coe_ne_top 1) h3
  · intro d hd
    ext t
    simp only [Set.mem_setOf_eq]
    by_cases e : t = s
    · subst e
      simp only [Function.update_self, hs, Option.some.injEq, Prod.mk.injEq]
      exact ⟨fun ⟨m, h⟩ => (by cases h), fun ⟨m, h⟩ => absurd h.2.symm hd⟩
    · rw [Function.update_of_ne e]

theorem Mem.null {h : Heap α} {B L p} (H : Mem h B L) (hp : L p = none) : Mem h (Function.update B p (some .null)) (Function.update L p (some [])) where
  gone q hq := by
    by_cases e : q = p
    · subst e; simp at hq
    · rw [Function.update_of_ne e] at hq ⊢; exact H.gone q hq
  here q m hm := by
    by_cases e : q = p
    · subst e; simp at hm; subst hm
      exact ⟨_, Function.update_self .., rfl, fun _ => rfl, by rintro a ⟨⟩⟩
    · rw [Function.update_of_ne e] at hm ⊢; exact H.here q m hm
  inj q r b c a hb hc ha ha' := by
    by_cases e : q = p
    · subst e; rw [Function.update_self] at hb; cases hb; cases ha
    by_cases e' : r = p
    · subst e'; rw [Function.update_self] at hc; cases hc; cases ha'
    rw [Function.update_of_ne e] at hb; rw [Function.update_of_ne e'] at hc
    exact H.inj q r b c a hb hc ha ha'
  owned a m ha := by
    obtain ⟨q, b, hb, hm⟩ := H.owned a m ha
    refine ⟨q, b, ?_, hm⟩
    rw [Function.update_of_ne]
    · exact hb
    · rintro rfl; rw [H.gone _ hp] at hb; cases hb
  fresh := H.fresh

theorem Inv.later {st : State α} {V L} (H : Inv st V L) : Inv { st with next := st.next + 1 } V L :=
  { H with fresh := fun c hc => H.fresh c (Nat.le_of_succ_le hc) }

theorem Inv.step {st : State α} {V L} (H : Inv st V L) (op : Op α) (ha : Allowed V op) :
    ∃ st' L', step op st = .ok ((effect V op).1, st') ∧ Inv st' (effect V op).2 L' := by
  cases op with
  | make x n v =>
    have hx : V.unique x = none := ha
    obtain ⟨h1, h2⟩ := H.no_size hx
    have hm := H.mem.construct h2 (List.replicate n v)
    refine ⟨_, _, if_pos h1, H.unique hm (fun c => by simp) (fun z => ?_) (fun z => ?_)⟩
    · simp only [Function.update_apply, Place.var.injEq]; split_ifs <;> simp [H.var]
    · simp only [State.construct, Function.update_apply]; split_ifs <;> simp [H.sizes]
  | move x y =>
    obtain ⟨hx, hy⟩ := ha
    obtain ⟨h1, h2⟩ := H.no_size hx
    obtain ⟨b, k1, k2, k3, k4, k5⟩ := H.array hy
    have hm := H.mem.move h2 k3 k2
    have hxy : x ≠ y := by rintro rfl; exact hy hx
    refine ⟨_, _, (if_pos h1).trans (by rw [k1, Outcome.map_ok]; rfl), H.unique hm (fun c => by simp) (fun z => ?_) (fun z => ?_)⟩
    · simp only [Values.put, Function.update_apply, Place.var.injEq]; split_ifs <;> simp [H.var]
    · simp only [State.moveConstruct, Values.put, Function.update_apply]; split_ifs <;> simp_all [H.sizes]
  | assign x y =>
    obtain ⟨hx, hy⟩ := ha
    obtain ⟨b, k1, k2, k3, k4, k5⟩ := H.array hx
    obtain ⟨c, j1, j2, j3, j4, j5⟩ := H.array hy
    obtain ⟨h', d1, d2⟩ := H.mem.delete k2
    by_cases e : x = y
    · subst e
      have hm := d2.null (Function.update_self ..)
      rw [Function.update_idem, Function.update_idem] at hm
      refine ⟨_, _, by simp only [Buffers.step, k1, State.moveAssign, d1, j2, Outcome.bind_ok, Outcome.map_ok, Function.update_idem]; rfl,
        H.unique hm (fun c => by simp) (fun z => ?_) (fun z => ?_)⟩
      · simp only [Values.put, Function.update_apply, Place.var.injEq]; split_ifs <;> simp [H.var]
      · simp only [Values.put, Function.update_apply]; split_ifs <;> simp_all [H.sizes]
    · have e' : Place.var y ≠ Place.var x := by simpa using Ne.symm e
      have hm := d2.move (p := .var x) (q := .var y) (b := c) (Function.update_self ..) (by rw [Function.update_of_ne e']; exact j3)
        (by rw [Function.update_of_ne e']; exact j2)
      rw [Function.update_idem, Function.update_idem] at hm
      refine ⟨_, _, by simp only [Buffers.step, k1, j1, State.moveAssign, d1, j2, Outcome.bind_ok, Outcome.map_ok]; rfl,
        H.unique hm (fun c => by simp) (fun z => ?_) (fun z => ?_)⟩
      · simp only [Values.put, Function.update_apply, Place.var.injEq]; split_ifs <;> simp [H.var]
      · simp only [Values.put, Function.update_apply]; split_ifs <;> simp_all [H.sizes]
  | write x i v =>
    obtain ⟨n, l, hv, hi⟩ := ha
    obtain ⟨b, k1, k2, k3, k4, k5⟩ := H.array (x := x) (by rw [hv]; simp)
    have hl : l = (V.get x).2 := by simp [Values.get, hv]
    obtain ⟨h', d1, d2⟩ := H.mem.write k2 k3 (hl ▸ hi) v
    refine ⟨_, _, by simp only [Buffers.step, k1, d1, Outcome.bind_ok, Outcome.map_ok]; rfl, H.unique d2 (fun c => by simp) (fun z => ?_) (fun z => ?_)⟩
    · simp only [Function.update_apply, Place.var.injEq]; split_ifs <;> simp [H.var]
    · simp only [Function.update_apply]; split_ifs with h
      · subst h; rw [H.sizes, k4]; rfl
      · exact H.sizes z
  | destroy x =>
    obtain ⟨b, k1, k2, k3, k4, k5⟩ := H.array (x := x) ha
    obtain ⟨h', d1, d2⟩ := H.mem.delete k2
    refine ⟨_, _, by simp only [Buffers.step, k1, State.destruct, d1, Outcome.bind_ok, Outcome.map_ok]; rfl, H.unique d2 (fun c => by simp) (fun z => ?_) (fun z => ?_)⟩
    · simp only [Function.update_apply, Place.var.injEq]; split_ifs <;> simp [H.var]
    · simp only [Function.update_apply]; split_ifs <;> simp_all [H.sizes]
  | reshapeCopy y x n =>
    obtain ⟨hy, hx⟩ := ha
    obtain ⟨h1, h2⟩ := H.no_size hy
    obtain ⟨b, k1, k2, k3, k4, k5⟩ := H.array hx
    have hm := H.mem.construct h2 (V.get x).2
    by_cases hn : n = (V.get x).2.length
    · have he : effect V (.reshapeCopy y x n) = (false, V.put y (some (n, (V.get x).2))) := if_pos hn
      rw [he]
      refine ⟨_, _, by simp only [Buffers.step, if_pos h1, k1, k5.range, Outcome.bind_ok, ne_eq, hn, not_true_eq_false, if_false]; rfl,
        H.unique hm (fun c => by simp) (fun z => ?_) (fun z => ?_)⟩
      · simp only [Function.update_apply, Place.var.injEq]; split_ifs <;> simp [H.var]
      · simp only [State.construct, Function.update_apply]; split_ifs <;> simp_all [H.sizes]
    · have he : effect V (.reshapeCopy y x n) = (true, V) := if_neg hn
      rw [he]
      obtain ⟨h', d1, d2⟩ := hm.delete (Function.update_self ..)
      refine ⟨_, _, by simp only [Buffers.step, if_pos h1, k1, k5.range, Outcome.bind_ok, ne_eq, hn, not_false_eq_true, if_true, State.destruct, State.construct, d1, Outcome.map_ok],
        H.unique d2 (fun c => by simp) (fun z => ?_) H.sizes⟩
      simp only [Function.update_apply, Place.var.injEq]; split_ifs <;> simp_all [H.var]
  | reshapeMove y x n =>
    obtain ⟨hy, hx⟩ := ha
    obtain ⟨h1, h2⟩ := H.no_size hy
    obtain ⟨b, k1, k2, k3, k4, k5⟩ := H.array hx
    have hyx : y ≠ x := by rintro rfl; exact hx hy
    have hm := H.mem.move h2 k3 k2
    by_cases hn : n = (V.get x).2.length
    · have he : effect V (.reshapeMove y x n) = (false, (V.put x (some ((V.get x).1, []))).put y (some (n, (V.get x).2))) := if_pos hn
      rw [he]
      refine ⟨_, _, by simp only [Buffers.step, if_pos h1, k1, k5.1, Outcome.bind_ok, ne_eq, hn, not_true_eq_false, if_false]; rfl,
        H.unique hm (fun c => by simp) (fun z => ?_) (fun z => ?_)⟩
      · simp only [Values.put, Function.update_apply, Place.var.injEq]; split_ifs <;> simp_all [H.var]
      · simp only [State.moveConstruct, Values.put, Function.update_apply]; split_ifs <;> simp_all [H.sizes]
    · have he : effect V (.reshapeMove y x n) = (true, V.put x (some ((V.get x).1, []))) := if_neg hn
      rw [he]
      obtain ⟨h', d1, d2⟩ := hm.delete (p := .var y) (b := b) (by rw [Function.update_of_ne (by simpa using hyx), Function.update_self])
      refine ⟨_, _, by simp only [Buffers.step, if_pos h1, k1, k5.1, Outcome.bind_ok, ne_eq, hn, not_false_eq_true, if_true, State.destruct, State.moveConstruct, d1, Outcome.map_ok]; rfl,
        H.unique d2 (fun c => by simp) (fun z => ?_) (fun z => ?_)⟩
      · simp only [Function.update_apply, Place.var.injEq]; split_ifs <;> simp_all [H.var]
      · simp only [Function.update_apply]; split_ifs <;> simp_all [H.sizes]
  | shareCopy s x =>
    obtain ⟨hs, hx⟩ := ha
    have h1 := H.no_shared hs
    obtain ⟨b, k1, k2, k3, k4, k5⟩ := H.array hx
    have hm := H.mem.construct (H.fresh _ le_rfl) (V.get x).2
    by_cases hn : (V.get x).1 = (V.get x).2.length
    · have he : effect V (.shareCopy s x) = (false, V.putShared s (some (V.get x))) := if_pos hn
      rw [he]
      refine ⟨_, _, by simp only [Buffers.step, if_pos h1, k1, k5.range, Outcome.bind_ok, if_neg (not_not.2 hn)]; rfl,
        H.first hs hm (fun c hc => by simp [hc]) ?_ (fun z => ?_) H.sizes⟩
      · rw [Function.update_self]; rfl
      · simp [H.var]
    · have he : effect V (.shareCopy s x) = (true, V) := if_neg hn
      rw [he]
      obtain ⟨h', d1, d2⟩ := hm.delete (Function.update_self ..)
      refine ⟨_, _, by simp only [Buffers.step, if_pos h1, k1, k5.range, Outcome.bind_ok, ne_eq, hn, not_false_eq_true, if_true, State.destruct, State.construct, d1, Outcome.map_ok],
        H.later.unique d2 (fun c => ?_) (fun z => ?_) H.sizes⟩
      · rw [Function.update_idem]; simp only [Function.update_apply]; split_ifs with h
        · rw [h]; exact (H.fresh _ le_rfl).symm
        · rfl
      · simp [H.var]
  | shareMove s x =>
    obtain ⟨hs, hx⟩ := ha
    have h1 := H.no_shared hs
    obtain ⟨b, k1, k2, k3, k4, k5⟩ := H.array hx
    have hm := H.mem.move (H.fresh _ le_rfl) k3 k2
    by_cases hn : (V.get x).1 = (V.get x).2.length
    · have he : effect V (.shareMove s x) = (false, (V.put x (some ((V.get x).1, []))).putShared s (some (V.get x))) := if_pos hn
      rw [he]
      refine ⟨_, _, by simp only [Buffers.step, if_pos h1, k1, k5.1, Outcome.bind_ok, if_neg (not_not.2 hn)]; rfl,
        H.first hs hm (fun c hc => by simp [hc]) ?_ (fun z => ?_) (fun z => ?_)⟩
      · rw [Function.update_of_ne (by simp), Function.update_self]; rfl
      · simp only [Values.put, Function.update_apply, Place.var.injEq]; split_ifs <;> simp_all [H.var]
      · simp only [Values.put, Function.update_apply]; split_ifs <;> simp_all [H.sizes]
    · have he : effect V (.shareMove s x) = (true, V.put x (some ((V.get x).1, []))) := if_neg hn
      rw [he]
      obtain ⟨h', d1, d2⟩ := hm.delete (p := .held st.next) (b := b) (by rw [Function.update_of_ne (by simp), Function.update_self])
      refine ⟨_, _, by simp only [Buffers.step, if_pos h1, k1, k5.1, Outcome.bind_ok, ne_eq, hn, not_false_eq_true, if_true, State.destruct, State.moveConstruct, d1, Outcome.map_ok]; rfl,
        H.later.unique d2 (fun c => ?_) (fun z => ?_) (fun z => ?_)⟩
      · simp only [Function.update_apply]; split_ifs with h
        · rw [h]; exact (H.fresh _ le_rfl).symm
        · simp_all
        · rfl
      · simp only [Function.update_apply, Place.var.injEq]; split_ifs <;> simp_all [H.var]
      · simp only [Function.update_apply]; split_ifs <;> simp_all [H.sizes]
  | copy s t =>
    obtain ⟨hs, ht⟩ := ha
    obtain ⟨c, b, k1, k2, k3, k4, k5, k6⟩ := H.sharedArray ht
    exact ⟨_, _, (if_pos (H.no_shared hs)).trans (by rw [k1, Outcome.map_ok]; rfl), H.another hs k4⟩
  | reshape s t n =>
    obtain ⟨hs, ht⟩ := ha
    obtain ⟨c, b, k1, k2, k3, k4, k5, k6⟩ := H.sharedArray ht
    by_cases hn : n = (V.getShared t).2.length
    · have he : effect V (.reshape s t n) = (false, V.putShared s (some (n, (V.getShared t).2))) := if_pos hn
      rw [he]
      exact ⟨_, _, (if_pos (H.no_shared hs)).trans (by rw [k1, Outcome.map_ok]; simp only [k6.1, ne_eq, hn, not_true_eq_false, if_false]), H.another hs k4⟩
    · have he : effect V (.reshape s t n) = (true, V) := if_neg hn
      rw [he]
      exact ⟨_, _, (if_pos (H.no_shared hs)).trans (by rw [k1, Outcome.map_ok]; simp only [k6.1, ne_eq, hn, not_false_eq_true, if_true]), H⟩
  | drop s =>
    obtain ⟨c, b, k1, k2, k3, k4, k5, k6⟩ := H.sharedArray (s := s) ha
    obtain ⟨l1, l2⟩ := H.less k2 k4
    have hcount := (H.count c _ k4).1
    by_cases h1 : st.counts c = 1
    · obtain ⟨h', d1, d2⟩ := H.mem.delete k3
      refine ⟨{ st with heap := h', buffers := Function.update st.buffers (.held c) none, counts := Function.update st.counts c (st.counts c - 1), shared := Function.update st.shared s none },
        _, by simp only [Buffers.step, k1, Outcome.bind_ok, if_pos h1, State.destruct, d1, Outcome.map_ok]; rfl, d2, fun x => ?_, H.sizes, fun t ht => ?_,
        fun t n d ht => ?_, fun d l hd => ?_, fun d hd => ?_⟩
      · rw [Function.update_of_ne (by simp)]; exact H.var x
      · by_cases e : t = s
        · subst e; simp [effect, Values.putShared]
        · simp only [effect, Values.putShared, Function.update_of_ne e] at ht ⊢; exact H.gone t ht
      · by_cases e : t = s
        · subst e; simp at ht
        · have hdc : d ≠ c := by
            rintro rfl
            rw [h1] at l1
            have : t ∈ {t | ∃ m, Function.update st.shared s none t = some (m, d)} := ⟨n, ht⟩
            have l0 := Set.encard_eq_zero.1 (l1.trans (by simp))
            rw [l0] at this
            exact this
          simp only [effect, Values.putShared, Function.update_of_ne e] at ht ⊢
          obtain ⟨l, hl, hv⟩ := H.here t n d ht
          exact ⟨l, by rw [Function.update_of_ne (by simpa using hdc)]; exact hl, hv⟩
      · have hdc : d ≠ c := by rintro rfl; simp at hd
        rw [Function.update_of_ne (by simpa using hdc)] at hd
        simp only [Function.update_of_ne hdc, l2 d hdc]
        exact H.count d l hd
      · by_cases hdc : d = c
        · rw [hdc, Function.update_self]
        · rw [Function.update_of_ne (by simpa using hdc)]; exact H.fresh d hd
    · refine ⟨{ st with counts := Function.update st.counts c (st.counts c - 1), shared := Function.update st.shared s none },
        L, by simp only [Buffers.step, k1, Outcome.bind_ok, if_neg h1]; rfl, H.mem, H.var, H.sizes, fun t ht => ?_, fun t n d ht => ?_, fun d l hd => ?_, H.fresh⟩
      · by_cases e : t = s
        · subst e; simp [effect, Values.putShared]
        · simp only [effect, Values.putShared, Function.update_of_ne e] at ht ⊢; exact H.gone t ht
      · by_cases e : t = s
        · subst e; simp at ht
        · simp only [effect, Values.putShared, Function.update_of_ne e] at ht ⊢; exact H.here t n d ht
      · by_cases hdc : d = c
        · subst hdc
          simp only [Function.update_self]
          exact ⟨by omega, l1⟩
        · simp only [Function.update_of_ne hdc, l2 d hdc]
          exact H.count d l hd

end Verif.Buffers
