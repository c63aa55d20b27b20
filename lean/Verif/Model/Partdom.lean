import Verif.Model.Hyperslab
import Verif.Model.NdOps
import Verif.Model.Parallel

/-!
# The program that decomposes a domain (`subprog_partdom.cpp`)

The printed text is modelled by the coordinates printed for each block.  `N` and `procs` are `int`s that
are not negative.
-/

namespace Verif.Partdom
open Verif Verif.Nd Verif.Par Verif.H5

variable {K : Type}

/-- `subprog_partdom.cpp:83-88`: the vertices of one block.  The coordinates are converted to `double`
(core_geometric.hpp:128-131); their unit is dropped. -/
def vertexArray [NatCast K] (p : AccessPattern 3) : Outcome (Arr 3 (Fin 3 → K)) :=
  let reg : AccessPattern 3 := { p with final := fun a => w (p.final a + 1) }
  if !reg.JumpsOk then .ub
  else .ok ((indexArray reg.shape).map fun i a => ((reg.mapIndex i a : Nat) : K))

/-- `subprog_partdom.cpp:106-112`: the centres of the cells of one block. -/
def centerArray [Field K] (A : Arr 3 (Fin 3 → K)) : Outcome (Arr 3 (Fin 3 → K)) :=
  (midpoint (fun _ => 1 / 2) 0 A).bind fun A =>
  (midpoint (fun _ => 1 / 2) 1 A).bind fun A =>
  midpoint (fun _ => 1 / 2) 2 A

/-- `subprog_partdom.cpp:91-99, 114-122`: the loop over the blocks and the elements of each block. -/
def printed {α : Type} (A : Arr 3 (Arr 3 α)) : Outcome (List (Ix 3 × List α)) :=
  (makeAccessPattern A.shape).indexes.bind fun blocks =>
  collect (fun b => (A.get b).bind fun B => (elements B).map fun l => (b, l)) blocks

/-- What the program leaves behind: the two lists it prints and the dataset of its file. -/
structure Output (K : Type) where
  vertices : List (Ix 3 × List (Fin 3 → K))
  centers : List (Ix 3 × List (Fin 3 → K))
  data : Dataset 3 K

/-- `subprog_partdom.cpp:60-139` `main` with the options `N` and `procs`; a new dataset holds zeros. -/
def run [Field K] (N procs : Nat) : Outcome (Output K) :=
  (proposeBlockDecomposition 3 procs).bind fun blocksShape =>
  (createAccessPatternArray (fun _ => N) blocksShape).bind fun patterns =>
  let vertexArrays : Arr 3 (Arr 3 (Fin 3 → K)) := ⟨patterns.shape, fun b => (patterns.get b).bind vertexArray⟩
  (printed vertexArrays).bind fun vertices =>
  let centerArrays : Arr 3 (Arr 3 (Fin 3 → K)) := ⟨vertexArrays.shape, fun b => (vertexArrays.get b).bind centerArray⟩
  (printed centerArrays).bind fun centers =>
  (centerArrays.get fun _ => 0).bind fun A =>
  haveI : Inhabited K := ⟨0⟩
  (evaluate (A.map fun x => x 0)).bind fun x =>
  (patterns.get fun _ => 0).bind fun p =>
  (writeRegion ⟨fun _ => N, fun _ => 0⟩ x p).map fun data => ⟨vertices, centers, data⟩

end Verif.Partdom
