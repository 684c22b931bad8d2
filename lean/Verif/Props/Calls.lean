import Verif.Props.Runtime
import Verif.Props.Small
/-!
# Who acts: block callbacks (C67) and impersonated deliveries (C68)
-/

set_option linter.unusedSectionVars false

namespace Verif.Props
open Verif Spec
variable {S O T R B : Type} [StateObject O] [StateTransition T]

/-! ## C67 -/

/-- The result of a block callback from the result of the delivery it makes: an error is a
panic. -/
def orPanic (a : App S) : Res S (Except Err Unit) → Res (App S) Unit
  | .done (.ok _) s => .done () { a with store := s }
  | .diverge => .diverge
  | _ => .panic

/-- **C67** BeginBlock delivers exactly the begin-block transition, acting as "system:abci",
with admission; if the delivery fails, or the request cannot be converted, the node panics. -/
theorem C67_beginBlock (c : Config S O T R B) (n : Nat) (b : B) (a : App S) :
    c.beginBlock n b a = match c.setBeginBlock b with
      | .panic => .panic
      | .ret t => orPanic a (Verif.deliver (c.sys a.enabled) c.router n false [b!"system:abci"] t a.store) := by
  simp only [Config.beginBlock, Config.deliver, show Users.ofNames [userABCI] = [b!"system:abci"] from rfl]
  cases c.setBeginBlock b with
  | panic => rfl
  | ret t =>
    dsimp only
    cases Verif.deliver (c.sys a.enabled) c.router n false [b!"system:abci"] t a.store with
    | panic => rfl
    | diverge => rfl
    | done r s => cases r <;> rfl

/-- **C67** EndBlock delivers exactly the end-block transition, acting as "system:abci", with
admission; it returns the validator updates stored afterwards, and panics if the delivery fails,
there are none or one of them cannot be converted. -/
theorem C67_endBlock (c : Config S O T R B) (n : Nat) (height : Int) (a : App S) :
    c.endBlock n height a =
      match orPanic a (Verif.deliver (c.sys a.enabled) c.router n false [b!"system:abci"]
          (c.setEndBlock height) a.store) with
      | .panic => .panic
      | .diverge => .diverge
      | .done () a' => match c.ops.get a'.store c.valUpdatesType c.singletonId with
        | .error _ => .panic
        | .ok o => match c.toLegacy o with
          | .panic => .panic
          | .ret us => .done us a' := by
  simp only [Config.endBlock, Config.deliver, show Users.ofNames [userABCI] = [b!"system:abci"] from rfl]
  cases Verif.deliver (c.sys a.enabled) c.router n false [b!"system:abci"] (c.setEndBlock height) a.store with
  | panic => rfl
  | diverge => rfl
  | done r s =>
    cases r with
    | error e => rfl
    | ok u =>
      simp only [orPanic, Sys.get]
      show (match convertStoreError (c.ops.get s c.valUpdatesType c.singletonId) with
        | .panic => Res.panic
        | .ret (.error _) => .panic
        | .ret (.ok o) => match c.toLegacy o with
          | .panic => .panic
          | .ret us => .done us { a with store := s }) = _
      cases c.ops.get s c.valUpdatesType c.singletonId with
      | ok o => rfl
      | error e => cases e <;> rfl

/-- **C67** InitChain runs the genesis (the default one when no state is given, the import
otherwise) without authorization iff it was off, then delivers the init-chain transition as
"system:abci", and turns authorization on; it panics if either part fails. -/
theorem C67_initChain (c : Config S O T R B) (n : Nat) (chainId appState : Bytes) (a : App S) :
    c.initChain n chainId appState a =
      match (if appState = [] then c.initGenesis n a else c.importState n appState a) with
      | .panic => .panic
      | .diverge => .diverge
      | .done (.error _) _ => .panic
      | .done (.ok _) a' =>
        orPanic { a' with enabled := true } (Verif.deliver (c.sys a'.enabled) c.router n false
          [b!"system:abci"] (c.setInitChain chainId) a'.store) := by
  have hl : (appState.length = 0) = (appState = []) := by simp
  simp only [Config.initChain, Config.deliver, hl,
    show Users.ofNames [userABCI] = [b!"system:abci"] from rfl]
  cases (if appState = [] then c.initGenesis n a else c.importState n appState a) with
  | panic => rfl
  | diverge => rfl
  | done r a' =>
    cases r with
    | error e => rfl
    | ok u =>
      show (match Verif.deliver (c.sys a'.enabled) c.router n false [b!"system:abci"]
        (c.setInitChain chainId) a'.store with
        | .panic => Res.panic
        | .diverge => .diverge
        | .done (.error _) _ => .panic
        | .done (.ok ()) s => .done () { a' with store := s, enabled := true }) = _
      cases hd : Verif.deliver (c.sys a'.enabled) c.router n false [b!"system:abci"]
        (c.setInitChain chainId) a'.store with
      | panic => simp [orPanic, hd]
      | diverge => simp [orPanic, hd]
      | done r s => cases r <;> simp [orPanic, hd]

/-- **C67** The default genesis first delivers the module descriptors as "system:runtime", then
runs the genesis of every module in order, each with the client of its module, and starts the
services; only then is the application marked as initialised. -/
theorem C67_initGenesis (c : Config S O T R B) (n : Nat) (a : App S) (hi : a.initialized = false) :
    c.initGenesis n a =
      match inOrder ((fun s => Verif.deliver (c.sys a.enabled) c.router n false
            [b!"system:runtime"] c.createModules s) ::
          c.genesis.map fun g s => g.default.run (c.sys a.enabled)
            (Verif.deliver (c.sys a.enabled) c.router n false) [g.owner] s) a.store with
      | .panic => .panic
      | .diverge => .diverge
      | .done (.error e) s => .done (.error e) { a with store := s }
      | .done (.ok _) s =>
        .done (startServices c.services).2 { a with store := s, initialized := true } := by
  have key : ∀ (gs : List (Genesis O T)) (s : S),
      runAll (fun (g : Genesis O T) s => c.runAs n a.enabled g.owner g.default s) id gs s =
      inOrder (gs.map fun g s => g.default.run (c.sys a.enabled)
            (Verif.deliver (c.sys a.enabled) c.router n false) [g.owner] s) s := by
    intro gs
    induction gs with
    | nil => intro s; rfl
    | cons g gs ih =>
      intro s
      simp only [runAll, List.map_cons, inOrder]
      have : ∀ s, c.runAs n a.enabled g.owner g.default s = g.default.run (c.sys a.enabled)
            (Verif.deliver (c.sys a.enabled) c.router n false) [g.owner] s := fun s => rfl
      rw [this]
      cases g.default.run (c.sys a.enabled) (Verif.deliver (c.sys a.enabled) c.router n false)
        [g.owner] s with
      | panic => rfl
      | diverge => rfl
      | done r s => cases r with
        | error e => rfl
        | ok u => exact ih s
  simp only [Config.initGenesis, hi, Bool.false_eq_true, if_false, inOrder]
  simp only [key, Config.deliver, show Users.ofNames [userRuntime] = [b!"system:runtime"] from rfl]
  cases Verif.deliver (c.sys a.enabled) c.router n false [b!"system:runtime"] c.createModules a.store with
  | panic => rfl
  | diverge => rfl
  | done r s =>
    cases r with
    | error e => rfl
    | ok u =>
      dsimp only
      split <;> rename_i h <;> simp only [h]

/-- **C67** Once the chain is initialised, authorization is on after every history of
requests. -/
theorem C67_authorization_stays_on {c : Config S O T R B} {n k : Nat} {id st : Bytes}
    {a a₁ a₂ : App S} {calls : List (Call B)} {rs : List (Resp O)}
    (h : c.initChain n id st a = .done () a₁) (hs : c.steps k a₁ calls = .done rs a₂) :
    a₂.enabled = true := by
  have hinit : ∀ {n id st} {a a₁ : App S}, c.initChain n id st a = .done () a₁ →
      a₁.enabled = true := by
    intro n id st a a₁ h
    simp only [Config.initChain] at h
    split at h
    · cases h
    · cases h
    · cases h
    · split at h
      · cases h
      · cases h
      · cases h
      · simp only [Res.done.injEq, true_and] at h; rw [← h]
  have h1 := hinit h
  clear h
  induction calls generalizing a₁ rs with
  | nil => simp only [Config.steps, Res.done.injEq] at hs; rw [← hs.2]; exact h1
  | cons x xs ih =>
    simp only [Config.steps] at hs
    split at hs
    · cases hs
    · cases hs
    · rename_i r a₃ hx
      split at hs
      · cases hs
      · cases hs
      · rename_i rs' a₄ hx2
        simp only [Res.done.injEq] at hs
        refine ih (hs.2 ▸ hx2) ?_
        by_cases hc : ∃ id st, x = .initChain id st
        · obtain ⟨id, st, rfl⟩ := hc
          simp only [Config.step] at hx
          cases hi : c.initChain k id st a₁ with
          | panic => rw [hi] at hx; cases hx
          | diverge => rw [hi] at hx; cases hx
          | done u a₅ =>
            rw [hi] at hx
            simp only [Config.mapRes, Res.done.injEq] at hx
            rw [← hx.2]; exact hinit hi
        · exact (C20_requests_only_allowed_writes h1 (fun id st hh => hc ⟨id, st, hh⟩) hx).2

example : ∃ a₁ a₂ rs, toyApp.initChain 1 b!"chain" [] ⟨fresh sampleReg, false, false⟩ = .done () a₁ ∧
    toyApp.steps 1 a₁ [.beginBlock (), .deliverTx b!"x", .commit] = .done rs a₂ :=
  ⟨_, _, _, rfl, rfl⟩

/-! ## C68 -/

/-- **C68** A delivery that a module makes through its client is made for exactly the module
and the users it impersonates, and always with admission: the code goes on with the result of
that delivery. -/
theorem C68_impersonation {α : Type} (sys : Sys S O) (router : Router O T R) (n : Nat) (me : Users)
    (t : T) (imp : Option Users) (k : Except Err Unit → Prog O T α) (s : S) :
    ∃ users : Users, users.Nodup ∧
      (∀ x, x ∈ users ↔ x ∈ me ∨ ∃ l, imp = some l ∧ x ∈ l) ∧
      (Prog.deliver t imp k).run sys (deliver sys router n false) me s =
        match deliver sys router n false users t s with
        | .panic => .panic
        | .diverge => .diverge
        | .done r s' => (k r).run sys (deliver sys router n false) me s' := by
  obtain ⟨h1, h2⟩ := C30_union [some me, imp]
  refine ⟨Users.union [some me, imp], h1, fun x => ?_, ?_⟩
  · rw [h2]
    constructor
    · rintro ⟨g, hg, hx⟩
      simp only [List.mem_cons, Option.some.injEq, List.not_mem_nil, or_false] at hg
      rcases hg with rfl | hg
      · exact .inl hx
      · exact .inr ⟨g, hg.symm, hx⟩
    · rintro (hx | ⟨l, rfl, hx⟩)
      · exact ⟨me, by simp, hx⟩
      · exact ⟨l, by simp, hx⟩
  · simp only [Prog.run]
    cases deliver sys router n false (Users.union [some me, imp]) t s <;> rfl

/-- **C68** With authorization on, a delivery made by a module for impersonated users succeeds
only if the authorizer allowed it to exactly the module together with those users. -/
theorem C68_impersonated_delivery_allowed {sys : Sys S O} {router : Router O T R}
    (he : sys.enabled = true) {n : Nat} {me : Users} {t : T} {imp : Option Users} {s s' : S}
    (h : (Prog.deliver t imp (fun r => .ret r)).run sys (deliver sys router n false) me s
      = .done (.ok ()) s') :
    ∃ (users : Users) (s₁ : S), (∀ x, x ∈ users ↔ x ∈ me ∨ ∃ l, imp = some l ∧ x ∈ l) ∧
      Allows sys s₁ .deliver (tname t) users := by
  obtain ⟨users, -, hu, e⟩ := C68_impersonation sys router n me t imp (fun r => .ret r) s
  rw [e] at h
  cases hd : deliver sys router n false users t s with
  | panic => rw [hd] at h; cases h
  | diverge => rw [hd] at h; cases h
  | done r s₂ =>
    rw [hd] at h
    simp only [Prog.run, Res.done.injEq] at h
    obtain ⟨rfl, rfl⟩ := h
    obtain ⟨s₁, ha, -⟩ := C20_delivered_only_if_allowed he hd
    exact ⟨users, s₁, hu, ha⟩

/-- Module "blog" delivers for "ann"; the two together are not what the authorizer allows, but
the module alone is. -/
example : (Prog.deliver (Toy.put b!"p" b!"ann") (some [b!"ann"]) (fun r => .ret r)).run
      (toyApp.sys true) (deliver (toyApp.sys true) toyRouter 1 false) [b!"blog"] (fresh sampleReg)
      = .done (.error .unauthorized) (fresh sampleReg) ∧
    ∃ s', (Prog.deliver (Toy.put b!"p" b!"ann") none (fun r => .ret r)).run
      (toyApp.sys true) (deliver (toyApp.sys true) toyRouter 1 false) [b!"blog"] (fresh sampleReg)
      = .done (.ok ()) s' := ⟨rfl, _, rfl⟩

end Verif.Props
