import Verif.Model.Coins
/-!
# Parsing and printing of coins (cosmos-sdk v0.42, types/coin.go, dec_coin.go, decimal.go, int.go)

The source of the cosmos-sdk is not part of the repository; this follows its published text.  Versions
differ in whether and at how many bits `NewDecFromStr` refuses a number, so this is a parameter:
`none` if it does not.  No denomination is registered with the sdk anywhere in the repository, so
`NormalizeDecCoin` gives back its argument.
-/

namespace Verif.Sdk

/-- The encodings of what `unicode.IsSpace` calls a space. -/
def spaces : List Bytes :=
  [[9], [10], [11], [12], [13], [32], [0xC2, 0x85], [0xC2, 0xA0], [0xE1, 0x9A, 0x80], [0xE2, 0x80, 0x80],
    [0xE2, 0x80, 0x81], [0xE2, 0x80, 0x82], [0xE2, 0x80, 0x83], [0xE2, 0x80, 0x84], [0xE2, 0x80, 0x85],
    [0xE2, 0x80, 0x86], [0xE2, 0x80, 0x87], [0xE2, 0x80, 0x88], [0xE2, 0x80, 0x89], [0xE2, 0x80, 0x8A],
    [0xE2, 0x80, 0xA8], [0xE2, 0x80, 0xA9], [0xE2, 0x80, 0xAF], [0xE2, 0x81, 0x9F], [0xE3, 0x80, 0x80]]

/-- The text without one of the given prefixes. -/
def dropOne (ps : List Bytes) (t : Bytes) : Option Bytes :=
  ps.findSome? fun p => if p.isPrefixOf t then some (t.drop p.length) else none

/-- The text without the given prefixes, however often they are repeated. -/
def dropAll (ps : List Bytes) : (fuel : Nat) → Bytes → Bytes
  | 0, t => t
  | f + 1, t => match dropOne ps t with
    | none => t
    | some r => dropAll ps f r

/-- `strings.TrimSpace`. -/
def trimSpace (t : Bytes) : Bytes :=
  let r := dropAll spaces t.length t
  (dropAll (spaces.map List.reverse) r.length r.reverse).reverse

/-- `[[:digit:]]`. -/
def isDigit (b : UInt8) : Bool := 48 ≤ b && b ≤ 57

/-- `[[:space:]]`. -/
def isSpace (b : UInt8) : Bool := (9 ≤ b && b ≤ 13) || b == 32

/-- `[a-zA-Z]`. -/
def isLetter (b : UInt8) : Bool := (97 ≤ b && b ≤ 122) || (65 ≤ b && b ≤ 90)

/-- `[a-zA-Z0-9/]`. -/
def isDenomByte (b : UInt8) : Bool := isLetter b || isDigit b || b == 47

/-- `[a-zA-Z][a-zA-Z0-9/]{2,127}` (`reDnmString`), with `ValidateDenom`. -/
def validDenom : Bytes → Bool
  | [] => false
  | b :: r => isLetter b && r.all isDenomByte && (2 ≤ r.length && r.length ≤ 127)

/-- The groups of `reDecCoin`, that is of an amount
`[[:digit:]]+(?:\.[[:digit:]]+)?|\.[[:digit:]]+`, spaces and a denomination, each of which begins with
a character the one before cannot contain: the digits before the point, those after it if there is
one, and the denomination. -/
def matchCoin (t : Bytes) : Option (Bytes × Option Bytes × Bytes) :=
  let whole := t.takeWhile isDigit
  match t.dropWhile isDigit with
  | 46 :: r =>
    let fraction := r.takeWhile isDigit
    let denom := (r.dropWhile isDigit).dropWhile isSpace
    if fraction = [] then none
    else if validDenom denom then some (whole, some fraction, denom) else none
  | r =>
    let denom := r.dropWhile isSpace
    if whole = [] then none
    else if validDenom denom then some (whole, none, denom) else none

/-- `big.Int.SetString` of decimal digits. -/
def number (ds : Bytes) : Nat := ds.foldl (fun n d => 10 * n + (d.toNat - 48)) 0

/-- The end of `NewDecFromStr`: a number of the given number of digits after the point as a multiple of
10⁻¹⁸; `bits` is the largest number of bits, if it is checked. -/
def decOf (bits : Option Nat) (ds : Bytes) (places : Nat) : Option Nat :=
  if 18 < places then none
  else
    let n := number (ds ++ List.replicate (18 - places) 48)
    match bits with
    | none => some n
    | some b => if n < 2 ^ b then some n else none

/-- `NewDecFromStr` of what `reDecCoin` matches. -/
def decFromStr (bits : Option Nat) (whole : Bytes) : Option Bytes → Option Nat
  | none => decOf bits whole 0
  | some fraction => if whole = [] then none else decOf bits (whole ++ fraction) fraction.length

/-- `ParseDecCoin`: the denomination and the amount in units of 10⁻¹⁸. -/
def parseDecCoin (bits : Option Nat) (t : Bytes) : Option (Bytes × Nat) :=
  match matchCoin (trimSpace t) with
  | none => none
  | some (whole, fraction, denom) => match decFromStr bits whole fraction with
    | none => none
    | some n => some (denom, n)

/-- The loop of `ParseDecCoins`. -/
def parseEach (bits : Option Nat) : List Bytes → Option (List (Bytes × Nat))
  | [] => some []
  | t :: ts => match parseDecCoin bits t with
    | none => none
    | some c => match parseEach bits ts with
      | none => none
      | some l => some (c :: l)

/-- Insertion into a sorted list. -/
def insert (c : Bytes × Nat) : List (Bytes × Nat) → List (Bytes × Nat)
  | [] => [c]
  | d :: l => if Bytes.lt d.1 c.1 then d :: insert c l else c :: d :: l

/-- `DecCoins.Sort`.  Coins of the same denomination may come in another order; they are refused by
`validDecCoins`. -/
def sort : List (Bytes × Nat) → List (Bytes × Nat)
  | [] => []
  | c :: l => insert c (sort l)

/-- `DecCoins.Validate`: strictly sorted and positive (the denominations have been checked). -/
def validDecCoins : List (Bytes × Nat) → Bool
  | [] => true
  | [c] => 0 < c.2
  | c :: d :: l => 0 < c.2 && Bytes.lt c.1 d.1 && validDecCoins (d :: l)

/-- `ParseDecCoins`. -/
def parseDecCoins (bits : Option Nat) (t : Bytes) : Option (List (Bytes × Nat)) :=
  let t := trimSpace t
  if t = [] then some []
  else match parseEach bits (Bytes.splitOn 44 t) with
    | none => none
    | some l =>
      let l := sort (l.filter fun c => c.2 ≠ 0)
      if validDecCoins l then some l else none

/-- `NormalizeCoins`: `TruncateInt` panics on numbers of more than 255 bits. -/
def normalize : List (Bytes × Nat) → Out SdkCoins
  | [] => .ret []
  | c :: l =>
    if c.2 / 10 ^ 18 < 2 ^ 255 then match normalize l with
      | .panic => .panic
      | .ret r => .ret ((c.1, ((c.2 / 10 ^ 18 : Nat) : Int)) :: r)
    else .panic

/-- `ParseCoinsNormalized`. -/
def parseCoins (bits : Option Nat) (t : Bytes) : Out (Except Err SdkCoins) :=
  match parseDecCoins bits t with
  | none => .ret (.error .other)
  | some l => match normalize l with
    | .panic => .panic
    | .ret r => .ret (.ok r)

/-- Decimal digits of a number. -/
def digitsOf : (fuel : Nat) → Nat → Bytes
  | 0, _ => []
  | f + 1, n => (if n < 10 then [] else digitsOf f (n / 10)) ++ [UInt8.ofNat (48 + n % 10)]

/-- `Int.String`. -/
def print (x : Int) : Bytes :=
  let ds := digitsOf (Nat.log2 x.natAbs + 1) x.natAbs
  if x < 0 then 45 :: ds else ds

/-- Whether `Int.Add` does not panic: at most 255 bits. -/
def fits (x : Int) : Bool := decide (x.natAbs < 2 ^ 255)

/-- What `core/coin/v1alpha1/coin.go` uses of the cosmos-sdk. -/
def coins (bits : Option Nat) : CoinLib where
  parse := parseCoins bits
  print := print
  fits := fits

end Verif.Sdk
