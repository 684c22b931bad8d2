import Verif.Spec.Chain
import Mathlib.Algebra.BigOperators.Group.List.Basic
import Mathlib.Algebra.Order.Group.Unbundled.Int
/-!
# Amounts of coins

What is assumed of the part of the cosmos-sdk that is not modelled, and the amount of a
denomination in a list of coins, in a balance, and in all balances together.
-/

namespace Verif.Spec

/-- Sorted by denomination, without repetition. -/
def SortedCoins (l : SdkCoins) : Prop := l.Pairwise fun a b => Bytes.lt a.1 b.1 = true

/-- The assumptions on parsing and printing of coins, with the largest amount that can be parsed:
parsed coins are sorted and not negative; what is printed of coins that are sorted, positive, not
too large and have a denomination that can be parsed is parsed as these coins; sums that are not
too large are in range; and the coins of the genesis account can be parsed.  Sums that cannot be
parsed may be in range, as in versions of the cosmos-sdk where an amount is parsed as a decimal
number with 18 places in 255 bits but `Int.Add` allows 255 bits. -/
structure CoinsUpTo (lib : CoinLib) (limit : Int) : Prop where
  nonneg : 0 ≤ limit
  parsed : ∀ ⦃t l⦄, lib.parse t = .ret (.ok l) → SortedCoins l ∧ ∀ c ∈ l, 0 ≤ c.2 ∧ c.2 ≤ limit
  printed : ∃ valid : Bytes → Prop,
    (∀ ⦃t l⦄, lib.parse t = .ret (.ok l) → ∀ c ∈ l, valid c.1) ∧
    ∀ l, SortedCoins l → (∀ c ∈ l, valid c.1 ∧ 0 < c.2 ∧ c.2 ≤ limit) →
      lib.parse (CoinLib.text (lib.toCoins l)) = .ret (.ok l)
  fits : ∀ x : Int, -limit ≤ x → x ≤ limit → lib.fits x = true
  genesis : ∃ l, lib.parse (CoinLib.text genesisCoins) = .ret (.ok l)

/-- The assumptions on parsing and printing of coins. -/
def CoinsOk (lib : CoinLib) : Prop := ∃ limit, CoinsUpTo lib limit

/-- The amount of a denomination. -/
def amount (l : SdkCoins) (d : Bytes) : Int := (l.map fun c => if c.1 = d then c.2 else 0).sum

/-- The amount of a denomination in coins as they are stored or sent; 0 if they cannot be
parsed. -/
def amountOf (lib : CoinLib) (cs : List Coin) (d : Bytes) : Int := match lib.balanceOf cs with
  | .ret (.ok l) => amount l d
  | _ => 0

/-- The amount of a denomination in the balance stored under a key; 0 if there is none. -/
def amountAt (lib : CoinLib) (m : World) (k d : Bytes) : Int := match balanceAt m k with
  | some cs => amountOf lib cs d
  | none => 0

/-- The keys of all balances. -/
structure Holders (m : World) (ks : List Bytes) : Prop where
  nodup : ks.Nodup
  mem : ∀ k, k ∈ ks ↔ (balanceAt m k).isSome

/-- The sum of the amounts of a denomination in the balances under the given keys. -/
def supply (lib : CoinLib) (m : World) (ks : List Bytes) (d : Bytes) : Int :=
  (ks.map fun k => amountAt lib m k d).sum

/-- Coins going from one address to another. -/
structure Transfer where
  source : Bytes
  target : Bytes
  coins : List Coin

/-- What a transfer adds to the amount of a denomination in the balance under a key. -/
def Transfer.change (lib : CoinLib) (k d : Bytes) (t : Transfer) : Int :=
  (if k = t.target then amountOf lib t.coins d else 0) - (if k = t.source then amountOf lib t.coins d else 0)

/-- What transfers add together. -/
def changes (lib : CoinLib) (k d : Bytes) (l : List Transfer) : Int := (l.map (Transfer.change lib k d)).sum

/-- The transfers requested by a transition. -/
def transfersOf : Tr → List Transfer
  | .sendCoins a b cs => [⟨a, b, cs⟩]
  | _ => []

/-- The payment of the fee. -/
def feeOf (tx : AppTx) : Transfer := ⟨tx.raw.payer, feeCollector, tx.raw.fee⟩

/-- No address in the transition is longer than 127 bytes. -/
def ShortTransition : Tr → Prop
  | .sendCoins a b _ => a.length < 128 ∧ b.length < 128
  | _ => True

/-- No address in the transaction is longer than 127 bytes. -/
def ShortTx (tx : AppTx) : Prop := tx.raw.payer.length < 128 ∧ ∀ t ∈ tx.transitions, ShortTransition t

/-- The transactions among the requests that can be decoded have no address longer than 127
bytes. -/
def ShortCalls (lib : Libs) (calls : List (Call BlockReq)) : Prop :=
  ∀ bytes, .deliverTx bytes ∈ calls → ∀ tx, lib.decode bytes = .ret (.ok tx) → ShortTx tx

end Verif.Spec
