import Verif.Spec.Coins
import Verif.Spec.Decoder
/-!
# Transactions that cannot crash the application
-/

namespace Verif.Spec

/-- What is further assumed of the cosmos-sdk: amounts are printed as text and denominations are
text. -/
structure TextCoins (lib : CoinLib) : Prop where
  printed : ∀ x, validUtf8 (lib.print x) = true
  denoms : ∀ ⦃t l⦄, lib.parse t = .ret (.ok l) → ∀ c ∈ l, validUtf8 c.1 = true

/-- Denominations and amounts are text. -/
def TextOk (cs : List Coin) : Prop := ∀ c ∈ cs, validUtf8 c.denom = true ∧ validUtf8 c.amount = true

/-- What a transition stores is text, and its content was left out only if nothing reads it. -/
def TextTransition : Tr → Prop
  | .createAccount (some a) => validUtf8 a.address = true ∧ ∀ k, a.pubKey = some k → validUtf8 k.typeUrl = true
  | .sendCoins source target coins => validUtf8 source = true ∧ validUtf8 target = true ∧ TextOk coins
  | .other api => api.name ∉ validatedNames ∧ api.name ≠ tname (.sendCoins [] [] [] : Tr)
  | _ => True

/-- What a transaction stores is text. -/
def TextTx (tx : AppTx) : Prop :=
  validUtf8 tx.raw.payer = true ∧ TextOk tx.raw.fee ∧ ∀ t ∈ tx.transitions, TextTransition t

/-- An address that can be given an account: not empty, shorter than 128 bytes and not the name of
a module. -/
def Usable (a : Bytes) : Prop := a ≠ [] ∧ a.length < 128 ∧ ∀ e ∈ moduleRoles, e.1 ≠ a

/-- The transition does not ask for anything that crashes: there is an account to be created,
addresses are usable, and coins can be read (or are refused). -/
def SafeTransition (lib : CoinLib) : Tr → Prop
  | .createAccount none => False
  | .createAccount (some a) => Usable a.address
  | .sendCoins source target coins => source ≠ [] ∧ source.length < 128 ∧ Usable target ∧ lib.balanceOf coins ≠ .panic
  | _ => True

/-- The address for which an account is to be created. -/
def created : Tr → Option Bytes
  | .createAccount (some a) => some a.address
  | _ => none

/-- The address to which coins are to be sent. -/
def credited : Tr → Option Bytes
  | .sendCoins _ target _ => some target
  | _ => none

/-- The transaction does not ask for anything that crashes; in particular the accounts it creates do
not exist, nor are they created otherwise by the transaction. -/
structure SafeTx (lib : CoinLib) (m : World) (tx : AppTx) : Prop where
  fee : lib.balanceOf tx.raw.fee ≠ .panic
  payer : tx.raw.payer.length < 128
  safe : ∀ t ∈ tx.transitions, SafeTransition lib t
  fresh : ∀ a ∈ tx.transitions.filterMap created, accountAt m a = none ∧ a ≠ feeCollector
  once : (tx.transitions.filterMap created).Nodup
  apart : ∀ a ∈ tx.transitions.filterMap created, a ∉ tx.transitions.filterMap credited

/-- The validation of the transaction does not crash. -/
def SafeCheck (tx : AppTx) : Prop := ∀ t ∈ tx.transitions, ∀ subject, t ≠ .bindRole [] subject

end Verif.Spec
