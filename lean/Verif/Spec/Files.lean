import Verif.Model.Desc
/-!
# Imports of protobuf files
-/

namespace Verif.Spec

/-- `g` is imported by `f`, directly or indirectly. -/
inductive Imports : File → File → Prop
  | direct {f g : File} : g ∈ f.imports → Imports f g
  | step {f g h : File} : g ∈ f.imports → Imports g h → Imports f h

/-- Among a file and what it imports, a path names one file. -/
def PathsName (f : File) : Prop :=
  ∀ g h, (g = f ∨ Imports f g) → (h = f ∨ Imports f h) → g.path = h.path → g = h

end Verif.Spec
