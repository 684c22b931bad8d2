import Verif.Model.Universe
/-!
# Coins (core/coin/v1alpha1/coin.go)

Parsing and printing of amounts and the overflow check are those of the cosmos-sdk v0.42.4
(`types.ParseCoinsNormalized`, `Int.String`, `Int.Add`), given here as a parameter; `Model/SdkCoins`
has a model of them that can be put in its place.  The arithmetic on lists of coins (`Coins.safeAdd`, `SafeSub`, `IsAnyNegative`) is modelled.
-/

namespace Verif

/-- `types.Coins`: denominations with amounts. -/
abbrev SdkCoins := List (Bytes × Int)

/-- What is used of the cosmos-sdk as a parameter: parsing, printing an amount, and whether a
sum is in the range of `types.Int` (otherwise `Int.Add` panics). -/
structure CoinLib where
  parse : Bytes → Out (Except Err SdkCoins)
  print : Int → Bytes
  fits : Int → Bool

namespace CoinLib
variable (lib : CoinLib)

/-- `removeZeroCoins` (cosmos-sdk types/coin.go). -/
def removeZero (l : SdkCoins) : SdkCoins := l.filter fun c => c.2 ≠ 0

/-- Put a coin in front of a sum unless its amount is zero. -/
def consNonzero (c : Bytes × Int) : Out SdkCoins → Out SdkCoins
  | .panic => .panic
  | .ret l => .ret (if c.2 = 0 then l else c :: l)

/-- One coin `a` of the first list (followed by `rest`) against the second list; `k` merges
`rest`. -/
def mergeCoin (a : Bytes × Int) (rest : SdkCoins) (k : SdkCoins → Out SdkCoins) :
    SdkCoins → Out SdkCoins
  | [] => .ret (removeZero (a :: rest))
  | b :: bs =>
    if Bytes.lt a.1 b.1 then consNonzero a (k (b :: bs))
    else if Bytes.lt b.1 a.1 then consNonzero b (mergeCoin a rest k bs)
    else if !lib.fits (a.2 + b.2) then .panic
    else consNonzero (a.1, a.2 + b.2) (k bs)

/-- `Coins.safeAdd` (cosmos-sdk types/coin.go), the merge of two lists sorted by
denomination. -/
def safeAdd : SdkCoins → SdkCoins → Out SdkCoins
  | [], bs => .ret (removeZero bs)
  | a :: as, bs => lib.mergeCoin a as (safeAdd as) bs

/-- `Coins.negative`. -/
def negative (l : SdkCoins) : SdkCoins := l.map fun c => (c.1, -c.2)

/-- `Coins.IsAnyNegative`. -/
def anyNegative (l : SdkCoins) : Bool := l.any fun c => c.2 < 0

/-- The text built by `newBalanceFromCoins` (coin.go:11-18): amount and denomination of each
coin, separated by commas. -/
def text : List Coin → Bytes
  | [] => []
  | [c] => c.amount ++ c.denom
  | c :: cs => c.amount ++ c.denom ++ 44 :: text cs

/-- `newBalanceFromCoins` (coin.go:10-24). -/
def balanceOf (l : List Coin) : Out (Except Err SdkCoins) := lib.parse (text l)

/-- `Balance.ToCoins` (coin.go:30-36). -/
def toCoins (l : SdkCoins) : List Coin := l.map fun c => ⟨c.1, lib.print c.2⟩

/-- `SafeSub` (coin.go:40-57). -/
def safeSubCoins (initial toSub : List Coin) : Out (Except Err (List Coin)) :=
  match lib.balanceOf initial with
  | .panic => .panic
  | .ret (.error e) => .ret (.error e)
  | .ret (.ok i) => match lib.balanceOf toSub with
    | .panic => .panic
    | .ret (.error e) => .ret (.error e)
    | .ret (.ok s) =>
      if anyNegative i || anyNegative s then .ret (.error .other)
      else match lib.safeAdd i (negative s) with
        | .panic => .panic
        | .ret d => if anyNegative d then .ret (.error .other) else .ret (.ok (lib.toCoins d))

/-- `SafeAdd` (coin.go:61-75). -/
def safeAddCoins (initial toAdd : List Coin) : Out (Except Err (List Coin)) :=
  match lib.balanceOf initial with
  | .panic => .panic
  | .ret (.error e) => .ret (.error e)
  | .ret (.ok i) => match lib.balanceOf toAdd with
    | .panic => .panic
    | .ret (.error e) => .ret (.error e)
    | .ret (.ok s) =>
      if anyNegative i || anyNegative s then .ret (.error .other)
      else match lib.safeAdd i s with
        | .panic => .panic
        | .ret d => .ret (.ok (lib.toCoins d))

end CoinLib

/-- Use the result of coin arithmetic in module code. -/
def withCoins (r : Out (Except Err (List Coin))) (k : Except Err (List Coin) → Code) : Code :=
  match r with
  | .panic => .crash
  | .ret r => k r

end Verif
