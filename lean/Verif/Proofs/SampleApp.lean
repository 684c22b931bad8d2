import Verif.Spec.SampleApp
import Verif.Proofs.Coins
import Verif.Proofs.SdkCoins
/-! # The sample parameters meet the assumptions -/

namespace Verif
open Spec

theorem sample_coinsOk : CoinsOk sampleCoins := Sdk.coinsOk (by rintro b ⟨⟩; decide)

theorem sample_text : TextCoins sampleCoins := Sdk.textCoins _


theorem sample_decodesWell {table : List (Bytes × AppTx)} (h : ∀ e ∈ table, Decoded e.2) :
    DecodesWell (sampleLib table) := by
  intro bytes tx ht
  simp only [sampleLib] at ht
  split at ht
  · rename_i e he
    cases ht
    exact h e (List.mem_of_find?_eq_some he)
  · cases ht

/-- A check for transactions of samples. -/
def wellFormed (tx : AppTx) : Bool := !tx.raw.signers.isEmpty && tx.raw.signers.all (!·.address.isEmpty) &&
  !tx.raw.payer.isEmpty && decide (tx.users = Users.ofNames (tx.raw.signers.map Signer.address)) &&
  !tx.transitions.isEmpty

theorem wellFormed_decoded {tx : AppTx} (h : wellFormed tx = true) : Decoded tx := by
  simp only [wellFormed, Bool.and_eq_true, Bool.not_eq_true', List.isEmpty_eq_false_iff, List.all_eq_true,
    decide_eq_true_eq] at h
  obtain ⟨⟨⟨⟨h1, h2⟩, h3⟩, h4⟩, h5⟩ := h
  exact ⟨h1, h2, h3, .of_eq h4, h5⟩

theorem sample_well {table : List (Bytes × AppTx)} (h : (table.all fun e => wellFormed e.2) = true) :
    DecodesWell (sampleLib table) :=
  sample_decodesWell fun e he => wellFormed_decoded (List.all_eq_true.1 h e he)

end Verif
