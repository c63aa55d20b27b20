import Verif.Model.SolutionFile
import Verif.Props.TreeSerialize

/-!
# Writing and reading datasets
-/

namespace Verif.File
open Verif Verif.Text Verif.TreeSerialize Verif.Tree

variable {δ β : Type}

/-- What a type of elements has to fulfil: sizes agree, memory of an object gives the object, and the members cover the object. -/
structure Elem.Lawful (E : Elem β δ) : Prop where
  size : ∀ v, (E.address v).length = E.type.size
  load : ∀ v rest, E.load (E.address v ++ rest) = .ok v
  inside : ∀ c ∈ E.type.cells, c < E.type.size
  cover : ∀ c < E.type.size, c ∈ E.type.cells

theorem gather_ok (mem : List (Scalar δ)) (cs : List Nat) (h : ∀ c ∈ cs, c < mem.length) :
    ∃ l, gather mem cs = .ok l ∧ l.map some = cs.map fun c => mem[c]? := by
  induction cs with
  | nil => exact ⟨[], rfl, rfl⟩
  | cons c cs ih =>
    obtain ⟨l, hl, hm⟩ := ih fun x hx => h x (by simp [hx])
    have hlt : c < mem.length := h c (by simp)
    have hc : mem[c]? = some mem[c] := List.getElem?_eq_getElem hlt
    refine ⟨mem[c] :: l, ?_, ?_⟩
    · simp only [gather, hc, hl]; rfl
    · simp only [List.map_cons, hm, hc]

theorem scatter_ok (mem : List (Scalar δ)) (cs : List Nat) (l m0 : List (Scalar δ)) (hl : l.map some = cs.map fun c => mem[c]?)
    (h : ∀ c ∈ cs, c < mem.length) (h0 : m0.length = mem.length) :
    ∃ r, scatter cs l m0 = .ok r ∧ r.length = mem.length ∧ ∀ i, r[i]? = if i ∈ cs then mem[i]? else m0[i]? := by
  induction cs generalizing l m0 with
  | nil => exact ⟨m0, by cases l <;> rfl, h0, fun i => by simp⟩
  | cons c cs ih =>
    cases l with
    | nil => simp at hl
    | cons v l =>
      simp only [List.map_cons, List.cons.injEq] at hl
      have hc := h c (by simp)
      obtain ⟨r, hr, hrl, hri⟩ := ih l (m0.set c v) hl.2 (fun x hx => h x (by simp [hx])) (by simp [h0])
      refine ⟨r, by simp only [scatter, h0, hc, if_true, hr], hrl, fun i => ?_⟩
      rw [hri i]
      by_cases hi : i ∈ cs
      · simp [hi]
      · by_cases e : i = c
        · subst e
          rw [if_neg hi, if_pos (by simp), ← hl.1, List.getElem?_set_self (by omega)]
        · rw [if_neg hi, if_neg (by simp [hi, e]), List.getElem?_set_ne (Ne.symm e)]

/-- Writing memory all of which belongs to the type, and reading it into other memory of the same length, restores it. -/
theorem gather_scatter (mem : List (Scalar δ)) (cs : List Nat) (h : ∀ c ∈ cs, c < mem.length) (hc : ∀ c < mem.length, c ∈ cs) :
    ∃ l, gather mem cs = .ok l ∧ ∀ m0, m0.length = mem.length → scatter cs l m0 = .ok mem := by
  obtain ⟨l, hl, hm⟩ := gather_ok mem cs h
  refine ⟨l, hl, fun m0 h0 => ?_⟩
  obtain ⟨r, hr, hrl, hri⟩ := scatter_ok mem cs l m0 hm h h0
  rw [hr]
  congr 1
  apply List.ext_getElem? 
  intro i
  rw [hri i]
  by_cases hi : i < mem.length
  · rw [if_pos (hc i hi)]
  · rw [List.getElem?_eq_none (by omega : mem.length ≤ i), List.getElem?_eq_none (by omega : m0.length ≤ i)]; simp

theorem offsets_inside {t : HType} {n : Nat} (h : ∀ c ∈ t.cells, c < t.size) : ∀ c ∈ offsets n t, c < n * t.size := by
  intro c hc
  simp only [offsets, List.mem_flatMap, List.mem_range, List.mem_map] at hc
  obtain ⟨e, he, x, hx, rfl⟩ := hc
  have := h x hx
  calc e * t.size + x < e * t.size + t.size := by omega
    _ = (e + 1) * t.size := by ring
    _ ≤ n * t.size := Nat.mul_le_mul_right _ he

theorem offsets_cover {t : HType} {n : Nat} (h : ∀ c < t.size, c ∈ t.cells) : ∀ c < n * t.size, c ∈ offsets n t := by
  intro c hc
  have hs : 0 < t.size := by
    rcases Nat.eq_zero_or_pos t.size with e | e
    · rw [e] at hc; omega
    · exact e
  simp only [offsets, List.mem_flatMap, List.mem_range, List.mem_map]
  exact ⟨c / t.size, (Nat.div_lt_iff_lt_mul hs).2 hc, c % t.size, h _ (Nat.mod_lt _ hs), Nat.div_add_mod' c t.size⟩

theorem read_absent {α : Type} {g : TreeSerialize.Group α} {name : Str} (h : name ∉ g.map Prod.fst) : g.read name = .throws .invalidArgument := by
  induction g with
  | nil => rfl
  | cons p g ih =>
    obtain ⟨m, w⟩ := p
    simp only [List.map_cons, List.mem_cons, not_or] at h
    simp only [Group.read, if_neg (Ne.symm h.1), ih h.2]

theorem write_absent {α : Type} {g : TreeSerialize.Group α} {name : Str} (v : α) (h : name ∉ g.map Prod.fst) : g.write name v = g ++ [(name, v)] := by
  induction g with
  | nil => rfl
  | cons p g ih =>
    obtain ⟨m, w⟩ := p
    simp only [List.map_cons, List.mem_cons, not_or] at h
    simp only [Group.write, if_neg (Ne.symm h.1), ih h.2, List.cons_append]

/-- Memory that is written under a new name makes a dataset from which it can be read. -/
theorem dataset_ok {t : HType} {s : Space} {mem : List (Scalar δ)} (hi : ∀ c ∈ t.cells, c < t.size) (hc : ∀ c < t.size, c ∈ t.cells)
    (hl : mem.length = s.points * t.size) :
    ∃ d : Dataset δ, (d.type = t ∧ d.space = s) ∧
      (∀ (g : Members δ) name, name ∉ g.map Prod.fst → writeData g name t s mem = .ok (g ++ [(name, .data d)])) ∧
      ∀ m0, m0.length = mem.length → d.read t s.points m0 = .ok mem := by
  obtain ⟨l, h1, h2⟩ := gather_scatter mem (offsets s.points t) (by rw [hl]; exact offsets_inside hi) (by rw [hl]; exact offsets_cover hc)
  refine ⟨⟨t, s, l⟩, ⟨rfl, rfl⟩, ?_, ?_⟩
  · intro g name hn
    simp only [writeData, read_absent hn, h1, Outcome.map_ok, write_absent _ hn]
  · intro m0 h0
    simp only [Dataset.read, ne_eq, not_true_eq_false, if_false, h2 m0 h0]

theorem length_flatMap_const {α γ : Type} (f : α → List γ) (k : Nat) (h : ∀ a, (f a).length = k) (l : List α) : (l.flatMap f).length = l.length * k := by
  induction l with
  | nil => simp
  | cons a l ih => simp [h, ih, Nat.succ_mul, Nat.add_comm]

theorem Elem.Lawful.loadAll_ok {E : Elem β δ} (h : E.Lawful) (l : List β) : E.loadAll l.length (l.flatMap E.address) = .ok l := by
  induction l with
  | nil => rfl
  | cons v l ih =>
    simp only [List.flatMap_cons, List.length_cons, Elem.loadAll, h.load, Outcome.bind_ok]
    rw [show (E.address v ++ List.flatMap E.address l).drop E.type.size = List.flatMap E.address l by rw [← h.size v, List.drop_left], ih]
    rfl

/-- A node is what writing `v` under a new name makes, and reading it gives `v`. -/
def Stores {γ : Type} (write : Members δ → Str → γ → Outcome (Members δ)) (read : Members δ → Str → Outcome γ) (v : γ) (x : Node δ) : Prop :=
  (∀ (g : Members δ) name, name ∉ g.map Prod.fst → write g name v = .ok (g ++ [(name, x)])) ∧
  ∀ (g : Members δ) name, g.read name = .ok x → read g name = .ok v

theorem Elem.Lawful.value {E : Elem β δ} (h : E.Lawful) (v : β) : ∃ x, Stores E.write E.read v x := by
  obtain ⟨d, _, hw, hr⟩ := dataset_ok (s := .scalar) h.inside h.cover (mem := E.address v) (by simp [Space.points, h.size])
  refine ⟨.data d, hw, fun g name hg => ?_⟩
  have := hr (E.address E.new) (by rw [h.size, h.size])
  have hload := h.load v []
  rw [List.append_nil] at hload
  simp only [Elem.read, openData, hg, Outcome.bind_ok]
  rw [show d.read E.type 1 (E.address E.new) = .ok (E.address v) from this, Outcome.bind_ok, hload]

theorem Elem.Lawful.array {E : Elem β δ} (h : E.Lawful) {rank : Nat} {a : Arr β} (ha : a.Full rank) :
    ∃ x, Stores E.writeArray (E.readArray rank) a x := by
  obtain ⟨d, ⟨_, hs⟩, hw, hr⟩ := dataset_ok (s := .simple a.shape) h.inside h.cover (mem := a.values.flatMap E.address)
    (by rw [length_flatMap_const _ _ h.size, ha.2]; rfl)
  refine ⟨.data d, hw, fun g name hg => ?_⟩
  have := hr ((List.replicate a.shape.prod (E.address E.new)).flatten) (by
    rw [length_flatMap_const _ _ h.size, ha.2]; simp [h.size])
  simp only [Elem.readArray, openData, hg, Outcome.bind_ok, Elem.ofDataset, hs, ha.1, ne_eq, not_true_eq_false, if_false]
  rw [show d.read E.type a.shape.prod _ = .ok (a.values.flatMap E.address) from this, Outcome.bind_ok, ← ha.2, h.loadAll_ok]
  rfl

theorem Elem.Lawful.list {E : Elem β δ} (h : E.Lawful) (l : List β) : ∃ x, Stores E.writeList E.readList l x := by
  obtain ⟨d, ⟨_, hs⟩, hw, hr⟩ := dataset_ok (s := .simple [l.length]) h.inside h.cover (mem := l.flatMap E.address)
    (by rw [length_flatMap_const _ _ h.size]; simp [Space.points])
  refine ⟨.data d, hw, fun g name hg => ?_⟩
  have hp : d.space.points = l.length := by simp [hs, Space.points]
  have := hr ((List.replicate l.length (E.address E.new)).flatten) (by
    rw [length_flatMap_const _ _ h.size]; simp [h.size])
  rw [show (Space.simple [l.length]).points = l.length by simp [Space.points]] at this
  simp only [Elem.readList, openData, hg, Outcome.bind_ok, hp, this, h.loadAll_ok]

/-! ### The types of the programs -/

theorem int_lawful : (int (δ := δ)).Lawful :=
  ⟨fun _ => rfl, fun _ _ => rfl, show ∀ c ∈ HType.int.cells, c < HType.int.size by decide, show ∀ c < HType.int.size, c ∈ HType.int.cells by decide⟩

theorem double_lawful [Zero δ] : (double (δ := δ)).Lawful :=
  ⟨fun _ => rfl, fun _ _ => rfl, by intro c hc; simpa [double, HType.cells, HType.size] using hc,
    by intro c hc; simpa [double, HType.cells, HType.size] using hc⟩

theorem rational_lawful : (rational (δ := δ)).Lawful :=
  ⟨fun _ => rfl, fun _ _ => rfl, show ∀ c ∈ (HType.array 2 .int).cells, c < (HType.array 2 .int).size by decide,
    show ∀ c < (HType.array 2 .int).size, c ∈ (HType.array 2 .int).cells by decide⟩

theorem loadSeq_ofFn {n : Nat} (v : Fin n → δ) (rest : List (Scalar δ)) : loadSeq n ((List.ofFn fun i => Scalar.dbl (v i)) ++ rest) = .ok v := by
  induction n with
  | zero => exact congrArg Outcome.ok (funext fun i => i.elim0)
  | succ n ih =>
    rw [List.ofFn_succ, List.cons_append, loadSeq, ih fun i => v i.succ]
    exact congrArg Outcome.ok (Fin.cons_self_tail v)

theorem array_cells (n : Nat) : (HType.array n .double).cells = List.range n := by
  simp only [HType.cells, HType.size]
  induction n with
  | zero => rfl
  | succ n ih => rw [List.range_succ, List.flatMap_append, ih]; simp

theorem seq_lawful [Zero δ] (n : Nat) : (seq (δ := δ) n).Lawful := by
  refine ⟨fun v => by simp [seq, HType.size], fun v rest => loadSeq_ofFn v rest, ?_, ?_⟩
  · intro c hc
    rw [show (seq (δ := δ) n).type = .array n .double from rfl, array_cells] at hc
    simpa [seq, HType.size] using hc
  · intro c hc
    rw [show (seq (δ := δ) n).type = .array n .double from rfl, array_cells]
    simpa [seq, HType.size] using hc

theorem tuple_lawful [Zero δ] (order : Equiv.Perm (Fin 3)) : (tuple (δ := δ) order).Lawful := by
  refine ⟨fun v => by simp [tuple, HType.size], fun v rest => ?_, (seq_lawful (δ := δ) 3).inside, (seq_lawful (δ := δ) 3).cover⟩
  simp only [tuple, loadSeq_ofFn (fun i => v (order i)), Outcome.map_ok, Equiv.apply_symm_apply]

theorem elements_lawful [Zero δ] [One δ] : (elements (δ := δ)).Lawful := by
  refine ⟨fun v => rfl, fun v rest => rfl, ?_, ?_⟩
  · show ∀ c ∈ elementsType.cells, c < elementsType.size
    decide +kernel
  · show ∀ c < elementsType.size, c ∈ elementsType.cells
    decide +kernel

theorem fullElements_lawful [Zero δ] [One δ] : (fullElements (δ := δ)).Lawful := by
  refine ⟨fun v => rfl, fun v rest => rfl, ?_, ?_⟩
  · show ∀ c ∈ fullType.cells, c < fullType.size
    decide +kernel
  · show ∀ c < fullType.size, c ∈ fullType.cells
    decide +kernel

theorem sample_lawful [Zero δ] [One δ] : (sample (δ := δ)).Lawful := by
  refine ⟨fun v => ?_, fun v rest => ?_, ?_, ?_⟩
  · simp [sample, sampleType, seq, fullElements, elements, HType.size, compound, sampleDecl]
  · have e : ∀ (w : Fin 2 → δ) (l : List (Scalar δ)), loadSeq 2 (.dbl (w 0) :: .dbl (w 1) :: l) = .ok w := fun w l => by
      simpa using loadSeq_ofFn w l
    cases v
    simp only [sample, seq, List.ofFn_succ, List.ofFn_zero, fullElements, elements, List.cons_append, List.nil_append, List.drop_succ_cons,
      List.drop_zero, e, Outcome.map_ok, Outcome.bind_ok, Fin.succ_zero_eq_one]
  · show ∀ c ∈ sampleType.cells, c < sampleType.size
    decide +kernel
  · show ∀ c < sampleType.size, c ∈ sampleType.cells
    decide +kernel

/-! ### Groups and trees -/

theorem inGroup_stores {γ : Type} {f : Members δ → γ → Outcome (Members δ)} {r : Members δ → Outcome γ} {v : γ} {ms : Members δ}
    (hf : f [] v = .ok ms) (hr : r ms = .ok v) :
    Stores (fun g name v => inGroup g name fun ms => f ms v) (fun g name => (openGroup g name).bind r) v (.group ms) := by
  refine ⟨fun g name hn => ?_, fun g name hg => ?_⟩
  · simp only [inGroup, requireGroup, read_absent hn, Outcome.bind_ok, hf, Outcome.map_ok, write_absent _ hn]
  · simp only [openGroup, hg, Outcome.bind_ok, hr]

theorem writeArrays_eq {R : Nat} {E : Elem β δ} {sh : Nat → Outcome Nat} {enc : Arr β → Node δ} {ns : List Str} {ps : List (Index R × Arr β)}
    (h : List.Forall₂ (fun n p => formatTreeIndex sh p.1 = .ok n) ns ps) (hnd : ns.Nodup)
    (henc : ∀ p ∈ ps, ∀ (g : Members δ) name, name ∉ g.map Prod.fst → E.writeArray g name p.2 = .ok (g ++ [(name, enc p.2)]))
    (g : Members δ) (hg : ∀ n ∈ ns, n ∉ g.map Prod.fst) :
    writeArrays E sh ps g = .ok (g ++ List.zipWith (fun n p => (n, enc p.2)) ns ps) := by
  induction h generalizing g with
  | nil => simp [writeArrays]
  | @cons n p ns ps hf hrest ih =>
    obtain ⟨i, v⟩ := p
    rw [List.nodup_cons] at hnd
    simp only [writeArrays]
    rw [show formatTreeIndex sh i = .ok n from hf, Outcome.bind_ok, henc (i, v) (by simp) g n (hg n (by simp)), Outcome.bind_ok,
      ih hnd.2 (fun p hp => henc p (by simp [hp]))]
    · simp
    · intro m hm
      simp only [List.map_append, List.map_cons, List.map_nil, List.mem_append, List.mem_singleton, not_or]
      exact ⟨hg m (by simp [hm]), fun e => hnd.1 (e ▸ hm)⟩

theorem readArrays_eq {R rank : Nat} {E : Elem β δ} {sh : Nat → Outcome Nat} {g : Members δ} {gA : TreeSerialize.Group (Arr β)} (ns : List Str)
    (h : ∀ n ∈ ns, E.readArray rank g n = gA.read n) (t : Tree R (Arr β)) : readArrays E rank sh g ns t = TreeSerialize.readTree sh gA ns t := by
  induction ns generalizing t with
  | nil => rfl
  | cons n ns ih =>
    simp only [readArrays, TreeSerialize.readTree, h n (by simp)]
    congr 1; funext v; congr 1; funext i; congr 1; funext t'
    exact ih (fun m hm => h m (by simp [hm])) t'

end Verif.File
