import Verif.Model.Quadtree

/-!
# Flux correction of the binary program (`subprog_binary_scheme.cpp:614-720`)

The functions for the axes x and y differ by the axis only, and are one definition here.  `sh n` is the outcome of
`1 << n`.
-/

namespace Verif.Binary

open Verif Verif.Nd Verif.Tree

variable {K : Type} (sh : Nat → Outcome Nat)

/-- The other axis of the plane. -/
def other (a : Fin 2) : Fin 2 :=
  match a with
  | 0 => 1
  | 1 => 0

/-- subprog_binary_scheme.cpp:625-626, 646-647, 667-668, 688-689: the index of a child of a node, on the side `s` of axis `a` and
in the half `m` of the other axis. -/
def childOn (a : Fin 2) (s m : Nat) : Index 2 := ⟨1, fun b => if b = a then s else m⟩

/-- subprog_binary_scheme.cpp:625-627, 646-648, 667-669, 688-690: the fluxes of the two children of the node on the side `s`,
joined along the other axis, and added in pairs. -/
def joined [Add K] (a : Fin 2) (s : Nat) (node : Tree 2 (Arr 2 K)) : Outcome (Arr 2 K) :=
  (node.at' sh (childOn a s 0)).bind fun A =>
  (node.at' sh (childOn a s 1)).bind fun B =>
  (Nd.concat (other a) B A).bind fun C =>
  restrictExtrinsic (other a) C

/-- subprog_binary_scheme.cpp:614-633 `correct_fluxes_xl`, 656-675 `correct_fluxes_yl`. -/
def correctLower [Add K] [Inhabited K] (a : Fin 2) (t : Tree 2 (Arr 2 K)) (i : Index 2) (F : Arr 2 K) : Outcome (Arr 2 K) :=
  (i.prevOn sh a).bind fun j =>
  (t.contains sh j).bind fun b =>
  if b then .ok F else
  (t.contains sh j.parentIndex).bind fun b =>
  if b then .ok F else
  (t.nodeAt sh j).bind fun node =>
  (joined sh a 1 node).bind fun D =>
  (selectFinal 1 a D).bind fun lower =>
  (dropFirst a F).bind fun upper =>
  (Nd.concat a upper lower).bind evaluate

/-- subprog_binary_scheme.cpp:635-654 `correct_fluxes_xr`, 677-696 `correct_fluxes_yr`. -/
def correctUpper [Add K] [Inhabited K] (a : Fin 2) (t : Tree 2 (Arr 2 K)) (i : Index 2) (F : Arr 2 K) : Outcome (Arr 2 K) :=
  (i.nextOn sh a).bind fun j =>
  (t.contains sh j).bind fun b =>
  if b then .ok F else
  (t.contains sh j.parentIndex).bind fun b =>
  if b then .ok F else
  (t.nodeAt sh j).bind fun node =>
  (joined sh a 0 node).bind fun D =>
  (selectFirst 1 a D).bind fun upper =>
  (dropFinal a F).bind fun lower =>
  (Nd.concat a upper lower).bind evaluate

/-- subprog_binary_scheme.cpp:702-710 `correct_fluxes_x`, 712-720 `correct_fluxes_y`. -/
def correctBlock [Add K] [Inhabited K] (a : Fin 2) (t : Tree 2 (Arr 2 K)) (i : Index 2) : Outcome (Arr 2 K) :=
  (t.at' sh i).bind fun F =>
  (correctLower sh a t i F).bind fun F =>
  correctUpper sh a t i F

/-- subprog_binary_scheme.cpp:822-823, 938-939: the correction of all blocks. -/
def correctFluxes [Add K] [Inhabited K] (a : Fin 2) (t : Tree 2 (Arr 2 K)) : Outcome (Tree 2 (Arr 2 K)) :=
  Tree.mapM (correctBlock sh a t) (t.indexes ⟨0, fun _ => 0⟩)

end Verif.Binary
