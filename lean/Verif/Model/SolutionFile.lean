import Verif.Model.Hdf5

/-!
# Solutions in files (`subprog_binary_io.cpp`, and the other programs)
-/

namespace Verif.File
open Verif Verif.Text Verif.TreeSerialize Verif.Tree

variable {δ β : Type}

/-! ### Structures of the binary program -/

/-- model_two_body.hpp:43-49 `orbital_elements_t`. -/
structure Elements (δ : Type) where
  separation : δ
  totalMass : δ
  massRatio : δ
  eccentricity : δ

/-- model_two_body.hpp:43-49: the declaration. -/
def elementsDecl : List (Str × Nat) :=
  [("separation".toList, 1), ("total_mass".toList, 1), ("mass_ratio".toList, 1), ("eccentricity".toList, 1)]

/-- subprog_binary_io.cpp:46-54. -/
def elementsType : HType := compound elementsDecl
  [("separation".toList, .double), ("total_mass".toList, .double), ("mass_ratio".toList, .double), ("eccentricity".toList, .double)]

/-- subprog_binary_io.cpp:43-61. -/
def elements [Zero δ] [One δ] : Elem (Elements δ) δ where
  type := elementsType
  new := ⟨1, 1, 1, 0⟩
  address v := [.dbl v.separation, .dbl v.totalMass, .dbl v.massRatio, .dbl v.eccentricity]
  load
    | .dbl a :: .dbl b :: .dbl c :: .dbl d :: _ => .ok ⟨a, b, c, d⟩
    | _ => .ub

/-- model_two_body.hpp:53-66 `full_orbital_elements_t`. -/
structure FullElements (δ : Type) where
  pomega : δ
  tau : δ
  cmPositionX : δ
  cmPositionY : δ
  cmVelocityX : δ
  cmVelocityY : δ
  elements : Elements δ

/-- model_two_body.hpp:53-66: the declaration. -/
def fullDecl : List (Str × Nat) :=
  [("pomega".toList, 1), ("tau".toList, 1), ("cm_position_x".toList, 1), ("cm_position_y".toList, 1), ("cm_velocity_x".toList, 1),
    ("cm_velocity_y".toList, 1), ("elements".toList, 4)]

/-- subprog_binary_io.cpp:71-82. -/
def fullType : HType := compound fullDecl
  [("pomega".toList, .double), ("tau".toList, .double), ("cm_position_x".toList, .double), ("cm_position_y".toList, .double),
    ("cm_velocity_x".toList, .double), ("cm_velocity_y".toList, .double), ("elements".toList, elementsType)]

/-- subprog_binary_io.cpp:68-89. -/
def fullElements [Zero δ] [One δ] : Elem (FullElements δ) δ where
  type := fullType
  new := ⟨0, 0, 0, 0, 0, 0, elements.new⟩
  address v := [.dbl v.pomega, .dbl v.tau, .dbl v.cmPositionX, .dbl v.cmPositionY, .dbl v.cmVelocityX, .dbl v.cmVelocityY] ++ elements.address v.elements
  load
    | .dbl a :: .dbl b :: .dbl c :: .dbl d :: .dbl e :: .dbl f :: mem => (elements.load mem).map fun w => ⟨a, b, c, d, e, f, w⟩
    | _ => .ub

/-- subprog_binary.hpp:144-161 `time_series_sample_t`. -/
structure Sample (δ : Type) where
  time : δ
  diskMass : δ
  diskAngularMomentum : δ
  massEjected : δ
  angularMomentumEjected : δ
  massAccretedOn : Fin 2 → δ
  angularMomentumAccretedOn : Fin 2 → δ
  integratedTorqueOn : Fin 2 → δ
  workDoneOn : Fin 2 → δ
  orbitalElementsAcc : FullElements δ
  orbitalElementsGrav : FullElements δ
  orbitalElements : FullElements δ
  positionOfMass1 : Fin 2 → δ
  positionOfMass2 : Fin 2 → δ

/-- subprog_binary.hpp:144-161: the declaration. -/
def sampleDecl : List (Str × Nat) :=
  [("time".toList, 1), ("disk_mass".toList, 1), ("disk_angular_momentum".toList, 1), ("mass_ejected".toList, 1), ("angular_momentum_ejected".toList, 1),
    ("mass_accreted_on".toList, 2), ("angular_momentum_accreted_on".toList, 2), ("integrated_torque_on".toList, 2), ("work_done_on".toList, 2),
    ("orbital_elements_acc".toList, 10), ("orbital_elements_grav".toList, 10), ("orbital_elements".toList, 10),
    ("position_of_mass1".toList, 2), ("position_of_mass2".toList, 2)]

/-- subprog_binary_io.cpp:99-118; the members are not in the order of the declaration. -/
def sampleType : HType := compound sampleDecl
  [("time".toList, .double), ("disk_mass".toList, .double), ("disk_angular_momentum".toList, .double),
    ("mass_accreted_on".toList, .array 2 .double), ("angular_momentum_accreted_on".toList, .array 2 .double),
    ("integrated_torque_on".toList, .array 2 .double), ("work_done_on".toList, .array 2 .double),
    ("mass_ejected".toList, .double), ("angular_momentum_ejected".toList, .double),
    ("orbital_elements_acc".toList, fullType), ("orbital_elements_grav".toList, fullType),
    ("orbital_elements".toList, fullType),
    ("position_of_mass1".toList, .array 2 .double), ("position_of_mass2".toList, .array 2 .double)]

/-- subprog_binary_io.cpp:96-125. -/
def sample [Zero δ] [One δ] : Elem (Sample δ) δ where
  type := sampleType
  new := ⟨0, 0, 0, 0, 0, 0, 0, 0, 0, fullElements.new, fullElements.new, fullElements.new, 0, 0⟩
  address v := [.dbl v.time, .dbl v.diskMass, .dbl v.diskAngularMomentum, .dbl v.massEjected, .dbl v.angularMomentumEjected] ++
    (seq 2).address v.massAccretedOn ++ (seq 2).address v.angularMomentumAccretedOn ++ (seq 2).address v.integratedTorqueOn ++
    (seq 2).address v.workDoneOn ++ fullElements.address v.orbitalElementsAcc ++ fullElements.address v.orbitalElementsGrav ++
    fullElements.address v.orbitalElements ++ (seq 2).address v.positionOfMass1 ++ (seq 2).address v.positionOfMass2
  load
    | .dbl t :: .dbl m :: .dbl l :: .dbl me :: .dbl le :: mem =>
      ((seq 2).load mem).bind fun ma =>
      ((seq 2).load (mem.drop 2)).bind fun la =>
      ((seq 2).load (mem.drop 4)).bind fun tq =>
      ((seq 2).load (mem.drop 6)).bind fun w =>
      (fullElements.load (mem.drop 8)).bind fun ea =>
      (fullElements.load (mem.drop 18)).bind fun eg =>
      (fullElements.load (mem.drop 28)).bind fun e =>
      ((seq 2).load (mem.drop 38)).bind fun p1 =>
      ((seq 2).load (mem.drop 40)).bind fun p2 => .ok ⟨t, m, l, me, le, ma, la, tq, w, ea, eg, e, p1, p2⟩
    | _ => .ub

/-! ### Groups and trees -/

/-- core_hdf5.hpp:819-822 `open_group`. -/
def openGroup (g : Members δ) (name : Str) : Outcome (Members δ) :=
  (g.read name).bind fun
    | .data _ => .throws .invalidArgument
    | .group ms => .ok ms

/-- core_hdf5.hpp:823-835 `require_group`, the group that is found or made. -/
def requireGroup (g : Members δ) (name : Str) : Outcome (Members δ) :=
  match g.read name with
  | .ok (.group ms) => .ok ms
  | .ok (.data _) => .throws .invalidArgument
  | _ => .ok []

/-- Writing into a group of the group. -/
def inGroup (g : Members δ) (name : Str) (f : Members δ → Outcome (Members δ)) : Outcome (Members δ) :=
  (requireGroup g name).bind fun ms => (f ms).map fun ms' => g.write name (.group ms')

/-- app_serialize_tree.hpp:167-174 `write_tree` of a tree of arrays: the function handed to `sink`. -/
noncomputable def writeArrays {R : Nat} (E : Elem β δ) (sh : Nat → Outcome Nat) : List (Index R × Arr β) → Members δ → Outcome (Members δ)
  | [], g => .ok g
  | (i, v) :: ps, g => (formatTreeIndex sh i).bind fun n => (E.writeArray g n v).bind fun g' => writeArrays E sh ps g'

/-- app_serialize_tree.hpp:167-180: writing a tree of arrays. -/
noncomputable def Elem.writeTree {R : Nat} (E : Elem β δ) (sh : Nat → Outcome Nat) (g : Members δ) (name : Str) (t : Tree R (Arr β)) : Outcome (Members δ) :=
  inGroup g name fun ms => t.pairIndexes.bind fun p => writeArrays E sh p.sink ms

instance : Inhabited (Arr β) := ⟨⟨[], []⟩⟩

/-- app_serialize_tree.hpp:136-143 `read_tree` of a tree of arrays, with the members of the group in the given order. -/
noncomputable def readArrays {R : Nat} (E : Elem β δ) (rank : Nat) (sh : Nat → Outcome Nat) (g : Members δ) : List Str → Tree R (Arr β) → Outcome (Tree R (Arr β))
  | [], t => .ok t
  | n :: ns, t =>
    (E.readArray rank g n).bind fun v =>
    (readTreeIndex R n).bind fun i =>
    (Tree.insert sh v i.level t i).bind fun t' => readArrays E rank sh g ns t'

/-- app_serialize_tree.hpp:136-149: reading a tree of arrays into a new tree.  The library lists the names of a group in the order `order`. -/
noncomputable def Elem.readTree {R : Nat} (E : Elem β δ) (rank : Nat) (sh : Nat → Outcome Nat) (order : Members δ → List Str) (g : Members δ) (name : Str) :
    Outcome (Tree R (Arr β)) :=
  (openGroup g name).bind fun ms => readArrays E rank sh ms (order ms) (.leaf default)

/-! ### Solutions -/

/-- subprog_binary.hpp:108-126 `solution_t`. -/
structure BinarySolution (δ : Type) where
  time : δ
  iteration : Int × Int
  conservedU : Tree 2 (Arr (Fin 3 → δ))
  conservedQ : Tree 2 (Arr (Fin 3 → δ))
  massAccretedOn : Fin 2 → δ
  angularMomentumAccretedOn : Fin 2 → δ
  integratedTorqueOn : Fin 2 → δ
  workDoneOn : Fin 2 → δ
  massEjected : δ
  angularMomentumEjected : δ
  orbitalElementsAcc : FullElements δ
  orbitalElementsGrav : FullElements δ
  orbitalElements : FullElements δ

/-- subprog_binary_io.cpp:131-148. -/
noncomputable def writeBinary [Zero δ] [One δ] (mem : Equiv.Perm (Fin 3)) (sh : Nat → Outcome Nat) (g : Members δ) (s : BinarySolution δ) : Outcome (Members δ) :=
  (double.write g "time".toList s.time).bind fun g =>
  (rational.write g "iteration".toList s.iteration).bind fun g =>
  ((tuple mem).writeTree sh g "conserved_u".toList s.conservedU).bind fun g =>
  ((tuple mem).writeTree sh g "conserved_q".toList s.conservedQ).bind fun g =>
  ((seq 2).write g "mass_accreted_on".toList s.massAccretedOn).bind fun g =>
  (double.write g "angular_momentum_ejected".toList s.angularMomentumEjected).bind fun g =>
  ((seq 2).write g "integrated_torque_on".toList s.integratedTorqueOn).bind fun g =>
  ((seq 2).write g "work_done_on".toList s.workDoneOn).bind fun g =>
  (double.write g "mass_ejected".toList s.massEjected).bind fun g =>
  ((seq 2).write g "angular_momentum_accreted_on".toList s.angularMomentumAccretedOn).bind fun g =>
  (fullElements.write g "orbital_elements_acc".toList s.orbitalElementsAcc).bind fun g =>
  (fullElements.write g "orbital_elements_grav".toList s.orbitalElementsGrav).bind fun g =>
  fullElements.write g "orbital_elements".toList s.orbitalElements

/-- subprog_binary_io.cpp:174-191. -/
noncomputable def readBinary [Zero δ] [One δ] (mem : Equiv.Perm (Fin 3)) (sh : Nat → Outcome Nat) (order : Members δ → List Str) (g : Members δ) : Outcome (BinarySolution δ) :=
  (double.read g "time".toList).bind fun time =>
  (rational.read g "iteration".toList).bind fun iteration =>
  ((tuple mem).readTree 2 sh order g "conserved_u".toList).bind fun conservedU =>
  ((tuple mem).readTree 2 sh order g "conserved_q".toList).bind fun conservedQ =>
  ((seq 2).read g "mass_accreted_on".toList).bind fun massAccretedOn =>
  (double.read g "angular_momentum_ejected".toList).bind fun angularMomentumEjected =>
  ((seq 2).read g "integrated_torque_on".toList).bind fun integratedTorqueOn =>
  ((seq 2).read g "work_done_on".toList).bind fun workDoneOn =>
  (double.read g "mass_ejected".toList).bind fun massEjected =>
  ((seq 2).read g "angular_momentum_accreted_on".toList).bind fun angularMomentumAccretedOn =>
  (fullElements.read g "orbital_elements_acc".toList).bind fun orbitalElementsAcc =>
  (fullElements.read g "orbital_elements_grav".toList).bind fun orbitalElementsGrav =>
  (fullElements.read g "orbital_elements".toList).bind fun orbitalElements =>
  .ok ⟨time, iteration, conservedU, conservedQ, massAccretedOn, angularMomentumAccretedOn, integratedTorqueOn, workDoneOn, massEjected,
    angularMomentumEjected, orbitalElementsAcc, orbitalElementsGrav, orbitalElements⟩

/-- subprog_binary_io.cpp:150-158: the solution and the time series of a state; the schedule and the configuration are modelled in `Config` and `Runs`. -/
noncomputable def writeBinaryState [Zero δ] [One δ] (mem : Equiv.Perm (Fin 3)) (sh : Nat → Outcome Nat) (g : Members δ) (s : BinarySolution δ) (series : List (Sample δ)) : Outcome (Members δ) :=
  (inGroup g "solution".toList fun ms => writeBinary mem sh ms s).bind fun g =>
  sample.writeList g "time_series".toList series.reverse

/-- subprog_binary_io.cpp:193-201. -/
noncomputable def readBinaryState [Zero δ] [One δ] (mem : Equiv.Perm (Fin 3)) (sh : Nat → Outcome Nat) (order : Members δ → List Str) (g : Members δ) :
    Outcome (BinarySolution δ × List (Sample δ)) :=
  (requireGroup g "solution".toList).bind fun ms =>
  (readBinary mem sh order ms).bind fun s =>
  (sample.readList g "time_series".toList).bind fun l => .ok (s, l.reverse)

/-- subprog_binary.hpp:130-140 `diagnostic_fields_t` without the configuration. -/
structure BinaryFields (δ : Type) where
  time : δ
  vertices : Tree 2 (Arr (Fin 2 → δ))
  sigma : Tree 2 (Arr δ)
  radialVelocity : Tree 2 (Arr δ)
  phiVelocity : Tree 2 (Arr δ)
  positionOfMass1 : Fin 2 → δ
  positionOfMass2 : Fin 2 → δ

/-- subprog_binary_io.cpp:160-172, inside the group of the caller's name.  The group `run_config` gets what `write_config` puts into it (C139), here any members. -/
noncomputable def writeFields [Zero δ] (sh : Nat → Outcome Nat) (config : Members δ) (g : Members δ) (d : BinaryFields δ) : Outcome (Members δ) :=
  (inGroup g "run_config".toList fun ms => .ok (ms ++ config)).bind fun g =>
  (double.write g "time".toList d.time).bind fun g =>
  ((seq 2).writeTree sh g "vertices".toList d.vertices).bind fun g =>
  (double.writeTree sh g "sigma".toList d.sigma).bind fun g =>
  (double.writeTree sh g "radial_velocity".toList d.radialVelocity).bind fun g =>
  (double.writeTree sh g "phi_velocity".toList d.phiVelocity).bind fun g =>
  ((seq 2).write g "position_of_mass1".toList d.positionOfMass1).bind fun g =>
  (seq 2).write g "position_of_mass2".toList d.positionOfMass2

/-- subprog_binary_io.cpp:203-215, from the group of the caller's name; the configuration is not read. -/
noncomputable def readFields [Zero δ] (sh : Nat → Outcome Nat) (order : Members δ → List Str) (g : Members δ) : Outcome (BinaryFields δ) :=
  (double.read g "time".toList).bind fun time =>
  ((seq 2).readTree 2 sh order g "vertices".toList).bind fun vertices =>
  (double.readTree 2 sh order g "sigma".toList).bind fun sigma =>
  (double.readTree 2 sh order g "radial_velocity".toList).bind fun radialVelocity =>
  (double.readTree 2 sh order g "phi_velocity".toList).bind fun phiVelocity =>
  ((seq 2).read g "position_of_mass1".toList).bind fun positionOfMass1 =>
  ((seq 2).read g "position_of_mass2".toList).bind fun positionOfMass2 =>
  .ok ⟨time, vertices, sigma, radialVelocity, phiVelocity, positionOfMass1, positionOfMass2⟩

/-- subprog_cloud.cpp:104-110 `solution_t`. -/
structure CloudSolution (δ : Type) where
  time : δ
  iteration : Int × Int
  radialVertices : Arr δ
  polarVertices : Arr δ
  conserved : Arr (Fin 5 → δ)

/-- subprog_cloud.cpp:590-597. -/
noncomputable def writeCloud [Zero δ] (g : Members δ) (s : CloudSolution δ) : Outcome (Members δ) :=
  (double.write g "time".toList s.time).bind fun g =>
  (rational.write g "iteration".toList s.iteration).bind fun g =>
  (double.writeArray g "radial_vertices".toList s.radialVertices).bind fun g =>
  (double.writeArray g "polar_vertices".toList s.polarVertices).bind fun g =>
  (seq 5).writeArray g "conserved".toList s.conserved

/-- subprog_cloud.cpp:599-608. -/
noncomputable def readCloud [Zero δ] (g : Members δ) : Outcome (CloudSolution δ) :=
  (double.read g "time".toList).bind fun time =>
  (rational.read g "iteration".toList).bind fun iteration =>
  (double.readArray 1 g "radial_vertices".toList).bind fun radialVertices =>
  (double.readArray 1 g "polar_vertices".toList).bind fun polarVertices =>
  ((seq 5).readArray 2 g "conserved".toList).bind fun conserved => .ok ⟨time, iteration, radialVertices, polarVertices, conserved⟩

/-- subprog_sedov.cpp:128-134 `solution_state_t`; `k` conserved quantities. -/
structure SedovSolution (k : Nat) (δ : Type) where
  time : δ
  iteration : Int × Int
  vertices : Arr δ
  conserved : Arr (Fin k → δ)

/-- subprog_sedov.cpp:328-335. -/
noncomputable def writeSedov [Zero δ] {k : Nat} (g : Members δ) (s : SedovSolution k δ) : Outcome (Members δ) :=
  (double.write g "time".toList s.time).bind fun g =>
  (rational.write g "iteration".toList s.iteration).bind fun g =>
  (double.writeArray g "vertices".toList s.vertices).bind fun g =>
  (seq k).writeArray g "conserved".toList s.conserved

/-- subprog_sedov.cpp:337-346. -/
noncomputable def readSedov [Zero δ] (k : Nat) (g : Members δ) : Outcome (SedovSolution k δ) :=
  (double.read g "time".toList).bind fun time =>
  (rational.read g "iteration".toList).bind fun iteration =>
  (double.readArray 1 g "vertices".toList).bind fun vertices =>
  ((seq k).readArray 1 g "conserved".toList).bind fun conserved => .ok ⟨time, iteration, vertices, conserved⟩

/-- subprog_boilerplate.cpp:58-64 `solution_state_t`. -/
structure BoilerplateSolution (δ : Type) where
  time : δ
  iteration : Int
  vertices : Arr δ
  solution : Arr δ

/-- subprog_boilerplate.cpp:81-87. -/
noncomputable def writeBoilerplate [Zero δ] (g : Members δ) (s : BoilerplateSolution δ) : Outcome (Members δ) :=
  (double.write g "time".toList s.time).bind fun g =>
  (int.write g "iteration".toList s.iteration).bind fun g =>
  (double.writeArray g "vertices".toList s.vertices).bind fun g =>
  double.writeArray g "solution".toList s.solution

/-- subprog_boilerplate.cpp:89-97. -/
noncomputable def readBoilerplate [Zero δ] (g : Members δ) : Outcome (BoilerplateSolution δ) :=
  (double.read g "time".toList).bind fun time =>
  (int.read g "iteration".toList).bind fun iteration =>
  (double.readArray 1 g "vertices".toList).bind fun vertices =>
  (double.readArray 1 g "solution".toList).bind fun solution => .ok ⟨time, iteration, vertices, solution⟩

end Verif.File
