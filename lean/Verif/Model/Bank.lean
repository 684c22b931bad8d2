import Verif.Model.Coins
/-!
# Bank and distribution (x/bank, x/distribution)
-/

namespace Verif

/-- `SendCoinsHandler.createAccountIfNotExist` (x/bank/handler.go:92-109). -/
def createAccountIfNotExist (address : Bytes) : Code :=
  getAccount address fun
    | .ok _ => .ret (.ok ())
    | .error .notFound => .deliver (.createAccount (some { address })) none .ret
    | .error e => .ret (.error e)

/-- The part of `SendCoinsHandler.Exec` after the sender has been charged
(x/bank/handler.go:49-85). -/
def creditReceiver (lib : CoinLib) (target : Bytes) (amount : List Coin) : Code :=
  getBalance target fun
    | .ok balance => withCoins (lib.safeAddCoins balance amount) fun
      | .error e => .ret (.error e)
      | .ok new => .deliver (.setBalance target new) none .ret
    | .error .notFound => .deliver (.setBalance target amount) none
        (Prog.orReturn (createAccountIfNotExist target))
    | .error e => .ret (.error e)

/-- `SendCoinsHandler.Exec` (x/bank/handler.go:25-86). -/
def sendCoinsExec (lib : CoinLib) : Users → Tr → Code
  | _, .sendCoins source target amount => getBalance source fun
    | .error e => .ret (.error e)
    | .ok balance => withCoins (lib.safeSubCoins balance amount) fun
      | .error e => .ret (.error e)
      | .ok new => .deliver (.setBalance source new) none
          (Prog.orReturn (creditReceiver lib target amount))
  | _, _ => .crash

/-- `SetCoinsHandler.Exec` (x/bank/handler.go:119-140). -/
def setBalanceExec : Users → Tr → Code
  | _, .setBalance address amount => getBalance address fun
    | .ok _ => .update (.balance address amount) .ret
    | .error .notFound => .create (.balance address amount) .ret
    | .error e => .ret (.error e)
  | _, _ => .crash

/-- The genesis handler of bank (x/bank/genesis.go:16-23). -/
def bankGenesis : Code × (Option Bytes → Code) := (.ret (.ok ()), fun _ => .ret (.ok ()))

end Verif
