import Verif.Spec.Safe
/-!
# Transactions that are accepted
-/

namespace Verif.Spec

/-- A transition that external accounts may request, with coins that can be read and are something. -/
def Payment (lib : CoinLib) : Tr → Prop
  | .createAccount _ => True
  | .sendCoins _ _ cs => (∃ l, lib.balanceOf cs = .ret (.ok l)) ∧ ∃ d, 0 < amountOf lib cs d
  | _ => False

/-- The transaction can be paid for: its fee and its transfers can be read and are something, the payer
has the fee, and every transfer is covered by what its source has after the fee and the transfers before. -/
structure Covered (lib : CoinLib) (m : World) (tx : AppTx) : Prop where
  payments : ∀ t ∈ tx.transitions, Payment lib t
  readable : ∃ l, lib.balanceOf tx.raw.fee = .ret (.ok l)
  positive : ∃ d, 0 < amountOf lib tx.raw.fee d
  fee : ∀ d, amountOf lib tx.raw.fee d ≤ amountAt lib m tx.raw.payer d
  covered : ∀ before a b cs after, tx.transitions = before ++ .sendCoins a b cs :: after → ∀ d,
    amountOf lib cs d ≤ amountAt lib m a d + (feeOf tx).change lib a d + changes lib a d (before.flatMap transfersOf)

end Verif.Spec
