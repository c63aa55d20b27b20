import Verif.Model.FileSystem

/-!
# File systems that can be, and trees without links
-/

namespace Verif.Files
open Verif Verif.Text

/-- There is one entry at most at each path, and every entry is in a directory. -/
structure Sound (fs : FS) : Prop where
  once : (fs.map (·.1)).Nodup
  inside : ∀ x ∈ fs, x.1 ≠ [] ∧ kindAt fs x.1.dropLast = some .dir

/-- There is a directory at the path `p`, and no link on the way to it. -/
def DirAt (fs : FS) (p : Path) : Prop := ∀ q, q <+: p → kindAt fs q = some .dir

/-- There is no link in the directory `p` or below. -/
def NoLinks (fs : FS) (p : Path) : Prop := ∀ x ∈ fs, p <+: x.1 → ∀ t, x.2 ≠ .link t

/-- The file system without `p` and all that is below. -/
def without (fs : FS) (p : Path) : FS := fs.filter fun x => decide (¬ p <+: x.1)

end Verif.Files
