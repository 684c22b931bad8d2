import Verif.Spec.Genesis
/-! # Starting the chain -/

namespace Verif
open Spec

set_option maxRecDepth 100000

theorem app_initGenesis (lib : Libs) : (mapApp lib).initGenesis 10 ⟨Contents.empty, false, false⟩ =
    .done (.ok ()) ⟨fill Contents.empty (genesisBase lib), false, true⟩ := by
  rfl

end Verif
