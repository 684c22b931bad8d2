import Verif.Spec.Whole
import Verif.Props.Chain
/-!
# The application as a whole (C65, C70, C71, C72)
-/

set_option linter.unusedSectionVars false

namespace Verif.Props
open Verif Spec

variable {lib lib' : Libs} {m m' m₁ m₂ : World}

/-! ## C65 -/

theorem put_comm {ty : Bytes} {k k' : Bytes} (h : k ≠ k') (m : World) (v v' : Option Obj) :
    (m.put ty k v).put ty k' v' = (m.put ty k' v').put ty k v := by
  funext t x
  simp only [Contents.put]
  by_cases h1 : t = ty ∧ x = k'
  · rw [if_pos h1, if_neg fun h2 => h (h2.2.symm.trans h1.2), if_pos h1]
  · rw [if_neg h1]
    by_cases h2 : t = ty ∧ x = k
    · simp only [if_pos h2]
    · simp only [if_neg h2, if_neg h1]

theorem bump_perm {us us' : List Bytes} (h : us.Perm us') : ∀ m, bump m us = bump m us' := by
  induction h with
  | nil => intro m; rfl
  | cons u _ ih => intro m; simp only [bump, ih]
  | trans _ _ ih ih' => intro m; rw [ih, ih']
  | swap u v l =>
    intro m
    by_cases huv : u = v
    · rw [huv]
    simp only [bump]
    cases hv : accountAt m v with
    | none =>
      cases hu : accountAt m u with
      | none => simp only []
      | some b => simp only [accountAt_put, if_neg (Ne.symm huv), hv]
    | some a =>
      cases hu : accountAt m u with
      | none => simp only [accountAt_put, if_neg huv, hu]
      | some b =>
        simp only [accountAt_put, if_neg huv, if_neg (Ne.symm huv), hu, hv]
        rw [put_comm (Ne.symm huv)]

theorem _root_.Verif.Spec.Reordered.symm {tx tx' : AppTx} (h : Reordered tx tx') : Reordered tx' tx :=
  ⟨h.transitions.symm, h.raw.symm, h.users.symm⟩

theorem _root_.Verif.Spec.ReorderedLibs.decodes (h : ReorderedLibs lib lib') {bytes : Bytes} {tx : AppTx}
    (hd : lib.decode bytes = .ret (.ok tx)) : ∃ tx', lib'.decode bytes = .ret (.ok tx') ∧ Reordered tx tx' := by
  have h1 := h.decode bytes
  rw [hd] at h1
  generalize lib'.decode bytes = y at h1
  rcases y with (_ | tx') | _
  · cases h1
  · exact ⟨tx', rfl, h1⟩
  · cases h1

theorem _root_.Verif.Spec.ReorderedLibs.refuses (h : ReorderedLibs lib lib') {bytes : Bytes} {e : Err}
    (hd : lib.decode bytes = .ret (.error e)) : lib'.decode bytes = .ret (.error e) := by
  have h1 := h.decode bytes
  rw [hd] at h1
  exact h1

theorem _root_.Verif.Spec.ReorderedLibs.symm (h : ReorderedLibs lib lib') : ReorderedLibs lib' lib := by
  refine ⟨h.coins.symm, h.verify.symm, h.parseGenesis.symm, h.jsonFails.symm, fun bytes => ?_⟩
  have h1 := h.decode bytes
  generalize lib'.decode bytes = y at h1
  generalize lib.decode bytes = x at h1
  rcases x with (e | tx) | _
  · cases h1; rfl
  · rcases y with (e | tx') | _
    · cases h1
    · exact Reordered.symm h1
    · cases h1
  · cases h1; rfl

theorem _root_.Verif.Spec.ReorderedLibs.well (h : ReorderedLibs lib lib') (hw : DecodesWell lib) : DecodesWell lib' := by
  intro bytes tx' hd
  obtain ⟨tx, h1, hr⟩ := (ReorderedLibs.symm h).decodes hd
  have h2 := hw h1
  refine ⟨by rw [← hr.raw]; exact h2.signed, by rw [← hr.raw]; exact h2.addresses, by rw [← hr.raw]; exact h2.payer,
    ?_, by rw [← hr.transitions]; exact h2.transitions⟩
  rw [← hr.raw]
  exact hr.users.symm.trans h2.users

section
variable {tx tx' : AppTx}

theorem signed_reordered (h : ReorderedLibs lib lib') (hr : Reordered tx tx') (hs : Signed lib m tx) :
    Signed lib' m tx' := by
  refine ⟨fun u hu => hs.users u (hr.users.mem_iff.1 hu), ?_, ?_, ?_, ?_, ?_⟩ <;> rw [hr.raw]
  · exact hs.timeout
  · exact hs.memo
  · exact hs.count
  · rw [h.verify]; exact hs.signers
  · exact hs.payer

theorem authenticated_reordered (h : ReorderedLibs lib lib') (hr : Reordered tx tx') (hs : Authenticated lib m tx) :
    Authenticated lib' m tx' := by
  refine ⟨signed_reordered h hr hs.toSigned, ?_⟩
  rw [hr.raw, h.coins]
  exact hs.fee

theorem feeCrashes_reordered (h : ReorderedLibs lib lib') (hr : Reordered tx tx') (hs : FeeCrashes lib m tx) :
    FeeCrashes lib' m tx' := by
  simp only [FeeCrashes, hr.raw, h.coins]
  exact hs

theorem doTx_reordered (hr : Reordered tx tx') (c : CoinLib) (m : World) : doTx c tx' m = doTx c tx m := by
  simp only [doTx, hr.raw, hr.transitions, bump_perm hr.users]

end

theorem serve_reordered (h : ReorderedLibs lib lib') {c : Call BlockReq} {r : Resp Obj} (hs : Serve lib m c r m') :
    Serve lib' m c r m' := by
  cases hs with
  | info => exact .info _
  | commit => exact .commit _
  | query p n o hq => exact .query _ _ _ _ (by rw [h.jsonFails]; exact hq)
  | checkUndecodable b e hd => exact .checkUndecodable _ _ _ (h.refuses hd)
  | checkUnauthenticated b tx hd h1 h2 =>
    obtain ⟨tx', hd', hr⟩ := h.decodes hd
    exact .checkUnauthenticated _ _ _ hd' (fun k => h1 (authenticated_reordered h.symm hr.symm k))
      fun k => h2 ⟨signed_reordered h.symm hr.symm k.1, feeCrashes_reordered h.symm hr.symm k.2⟩
  | checked b tx r hd ha hc =>
    obtain ⟨tx', hd', hr⟩ := h.decodes hd
    exact .checked _ _ _ _ hd' (authenticated_reordered h hr ha) (by rw [hr.transitions]; exact hc)
  | undecodable b e hd => exact .undecodable _ _ _ (h.refuses hd)
  | unauthenticated b tx hd h1 h2 =>
    obtain ⟨tx', hd', hr⟩ := h.decodes hd
    exact .unauthenticated _ _ _ hd' (fun k => h1 (authenticated_reordered h.symm hr.symm k))
      fun k => h2 ⟨signed_reordered h.symm hr.symm k.1, feeCrashes_reordered h.symm hr.symm k.2⟩
  | executed _ b tx r hd ha hx =>
    obtain ⟨tx', hd', hr⟩ := h.decodes hd
    exact .executed _ _ _ _ _ hd' (authenticated_reordered h hr ha) (by rw [h.coins, doTx_reordered hr]; exact hx)
  | beginBlock b hb => exact .beginBlock _ _ hb
  | endBlock n us hu => exact .endBlock _ _ _ hu

theorem serveIdle_reordered (h : ReorderedLibs lib lib') {c : Call BlockReq} {r : Resp Obj} (hs : ServeIdle lib c r) :
    ServeIdle lib' c r := by
  cases hs with
  | info => exact .info
  | commit => exact .commit
  | query p n o hq => exact .query _ _ _ (by rw [h.jsonFails]; exact hq)
  | checkUndecodable b e hd => exact .checkUndecodable _ _ (h.refuses hd)
  | checkRejected b tx hd => obtain ⟨tx', hd', _⟩ := h.decodes hd; exact .checkRejected _ _ hd'
  | undecodable b e hd => exact .undecodable _ _ (h.refuses hd)
  | rejected b tx hd => obtain ⟨tx', hd', _⟩ := h.decodes hd; exact .rejected _ _ hd'

theorem runIdle_reordered (h : ReorderedLibs lib lib') {cs : List (Call BlockReq)} {rs : List (Resp Obj)}
    (hs : RunIdle lib cs rs) : RunIdle lib' cs rs := by
  induction hs with
  | nil => exact .nil
  | cons h1 _ ih => exact .cons (serveIdle_reordered h h1) ih

theorem run_reordered (h : ReorderedLibs lib lib') {cs : List (Call BlockReq)} {rs : List (Resp Obj)}
    (hs : Spec.Run lib m cs rs m') : Spec.Run lib' m cs rs m' := by
  induction hs with
  | nil => exact .nil _
  | cons h1 _ ih => exact .cons (serve_reordered h h1) ih

theorem genesisWorld_reordered (h : ReorderedLibs lib lib') (c : Bytes) : genesisWorld lib' c = genesisWorld lib c := by
  obtain ⟨h1, h2, h3, h4, _⟩ := h
  cases lib; cases lib'
  cases h1; cases h2; cases h3; cases h4
  rfl

theorem served_reordered (hw : DecodesWell lib) (h : ReorderedLibs lib lib') {calls : List (Call BlockReq)}
    {rs : List (Resp Obj)} (hs : Served lib calls rs m) : Served lib' calls rs m := by
  refine (served_iff (h.well hw)).2 ?_
  rcases (served_iff hw).1 hs with ⟨rfl, hr⟩ | ⟨pre, rs₀, c, post, rs', rfl, rfl, hp, hu, hr⟩
  · exact .inl ⟨rfl, runIdle_reordered h hr⟩
  · exact .inr ⟨pre, rs₀, c, post, rs', rfl, rfl, runIdle_reordered h hp, hu,
      genesisWorld_reordered h c ▸ run_reordered h hr⟩

/-- **C65** The order in which the users of transactions are enumerated (they are the keys of a Go
map, in no particular order, possibly another one for every transaction) changes neither the
responses to a history of requests nor the objects it leaves. -/
theorem C65_order_of_users (hw : DecodesWell lib) (h : ReorderedLibs lib lib') (calls : List (Call BlockReq))
    (rs : List (Resp Obj)) (m : World) : Served lib calls rs m ↔ Served lib' calls rs m :=
  ⟨served_reordered hw h, served_reordered (h.well hw) h.symm⟩

/-- A transaction that creates an account with a key, and one signed by it and by the genesis account. -/
def makeTx : AppTx := genesisTx b!"make" 0 [.createAccount (some ⟨b!"bob", some ⟨b!"key", []⟩, 0, 0⟩)]

def jointTx (users : List Bytes) : AppTx :=
  { sampleTx b!"joint" [signer genesisAddress b!"key" b!"joint" 0 1, signer b!"bob" b!"bobkey" b!"joint" 2 0] genesisAddress
    [.sendCoins genesisAddress b!"bob" [⟨b!"test", b!"5"⟩]] with users := users }

def jointLib (users : List Bytes) : Libs := sampleLib [(b!"1", makeTx), (b!"2", jointTx users)]

def jointUsers : List Bytes := Users.ofNames [genesisAddress, b!"bob"]

theorem joint_well : DecodesWell (jointLib jointUsers) := sample_well (by decide +kernel)

theorem joint_reordered : ReorderedLibs (jointLib jointUsers) (jointLib jointUsers.reverse) := by
  refine ⟨rfl, rfl, rfl, rfl, fun bytes => ?_⟩
  by_cases h1 : b!"1" = bytes
  · subst h1; exact ⟨rfl, rfl, .refl _⟩
  · by_cases h2 : b!"2" = bytes
    · subst h2; exact ⟨rfl, rfl, List.reverse_perm _⟩
    · simp only [jointLib, sampleLib, List.find?, h1, h2, decide_false]
      rfl

/-- The order differs, and the transaction is executed: the sequences of both signers grow. -/
example : jointUsers.reverse ≠ jointUsers ∧
    ∃ m, Served (jointLib jointUsers.reverse) [.initChain sampleChain [], .deliverTx b!"1", .deliverTx b!"2"]
      [.none, .code 0, .code 0] m ∧
      (accountAt m genesisAddress).map (·.sequence) = some 2 ∧ (accountAt m b!"bob").map (·.sequence) = some 1 := by
  obtain ⟨m, h, hp⟩ := leadsTo_served (lib := jointLib jointUsers) joint_well (calls := [.deliverTx b!"1", .deliverTx b!"2"])
    (rs := [.code 0, .code 0]) (P := fun m => (accountAt m genesisAddress).map (·.sequence) == some 2 &&
      (accountAt m b!"bob").map (·.sequence) == some 1) (by decide +kernel)
  rw [Bool.and_eq_true, beq_iff_eq, beq_iff_eq] at hp
  exact ⟨by decide, m, (C65_order_of_users joint_well joint_reordered _ _ _).1 h, hp⟩

/-! ## C70 -/

/-- **C70** No request is answered by an unending chain of deliveries: ten nested deliveries are
enough for all requests in all histories. -/
theorem C70_no_endless_delivery (hw : DecodesWell lib) (calls : List (Call BlockReq)) {n : Nat} (hn : 10 ≤ n) :
    (ormApp lib).steps n ⟨fresh appReg, false, false⟩ calls ≠ .diverge := by
  have hne := steps_idle_ne hw hn calls
  rcases (steps_on_a_map (c := ormApp lib) rfl app_regOk n calls).cases with ⟨r, s, b, h1, h2, _⟩ | ⟨h1, h2⟩ | ⟨h1, h2⟩
  · rw [h1]; simp
  · rw [h1]; simp
  · exact absurd h2 hne

/-! ## C72 -/

/-- **C72** The application behaves as the state machine of `Spec/Chain.lean` and in no other way:
a history is answered by it on the object store exactly if the state machine answers it, with the
same responses and the same objects in the end. -/
theorem C72_is_the_state_machine (hw : DecodesWell lib) (calls : List (Call BlockReq)) (rs : List (Resp Obj)) (m : World) :
    Served lib calls rs m ↔ (m = Contents.empty ∧ RunIdle lib calls rs) ∨
    ∃ pre rs₀ c post rs', calls = pre ++ .initChain c [] :: post ∧ rs = rs₀ ++ .none :: rs' ∧
      RunIdle lib pre rs₀ ∧ validUtf8 c = true ∧ Spec.Run lib (genesisWorld lib c) post rs' m :=
  served_iff hw

/-- **C72** A history has at most one sequence of responses and one final state. -/
theorem C72_deterministic {calls : List (Call BlockReq)} {rs rs' : List (Resp Obj)}
    (h : Served lib calls rs m) (h' : Served lib calls rs' m') : rs = rs' ∧ m = m' := by
  obtain ⟨n, a, h1, rfl⟩ := h
  obtain ⟨n', a', h2, rfl⟩ := h'
  have l1 := (C61_bound_irrelevant (c := ormApp lib) (n := n) (m := max n n') (by omega) (by rw [h1]; simp)).trans h1
  have l2 := (C61_bound_irrelevant (c := ormApp lib) (n := n') (m := max n n') (by omega) (by rw [h2]; simp)).trans h2
  rw [l1] at l2
  cases l2
  exact ⟨rfl, rfl⟩

/-- **C72** A history is either answered, or the process crashes; never both. -/
theorem C72_answers_or_crashes (hw : DecodesWell lib) (calls : List (Call BlockReq)) {n : Nat} (hn : 10 ≤ n) :
    (ormApp lib).steps n ⟨fresh appReg, false, false⟩ calls = .panic ↔ ¬ ∃ rs m, Served lib calls rs m := by
  have hne := C70_no_endless_delivery hw calls hn
  constructor
  · rintro h ⟨rs, m, n', a, h1, rfl⟩
    have l1 := (C61_bound_irrelevant (c := ormApp lib) (n := n) (m := max n n') (by omega) hne).trans h
    have l2 := (C61_bound_irrelevant (c := ormApp lib) (n := n') (m := max n n') (by omega) (by rw [h1]; simp)).trans h1
    rw [l1] at l2
    cases l2
  · intro h
    generalize hy : (ormApp lib).steps n ⟨fresh appReg, false, false⟩ calls = y at hne
    rcases y with ⟨rs, a⟩ | _ | _
    · exact absurd ⟨rs, _, n, a, hy, rfl⟩ h
    · rfl
    · exact absurd rfl hne

/-- **C65** Nor does the order of users decide about crashes. -/
theorem C65_crashes (hw : DecodesWell lib) (h : ReorderedLibs lib lib') (calls : List (Call BlockReq)) {n : Nat}
    (hn : 10 ≤ n) : (ormApp lib).steps n ⟨fresh appReg, false, false⟩ calls = .panic ↔
      (ormApp lib').steps n ⟨fresh appReg, false, false⟩ calls = .panic := by
  rw [C72_answers_or_crashes hw calls hn, C72_answers_or_crashes (h.well hw) calls hn]
  simp only [C65_order_of_users hw h]

/-! ## C71 -/

/-- **C71** An accepted transaction creates accounts and sends coins and does nothing else:
no other transition can be in it. -/
theorem C71_only_accounts_and_coins (hw : DecodesWell lib) {calls : List (Call BlockReq)} {rs : List (Resp Obj)}
    {bytes : Bytes} (hs : Starts calls) (h : Served lib calls rs m)
    (h1 : Served lib (calls ++ [.deliverTx bytes]) (rs ++ [.code 0]) m₁) :
    ∃ tx, lib.decode bytes = .ret (.ok tx) ∧ ∀ t ∈ tx.transitions, CreatesOrSends t := by
  obtain ⟨tx, hd, _, hx⟩ := accepted_authenticated hw hs h h1
  refine ⟨tx, hd, ?_⟩
  simp only [doTx] at hx
  generalize asBadRequest (doSend lib.coins tx.raw.payer feeCollector tx.raw.fee (bump m tx.users)) = y at hx
  rcases y with ⟨e | ⟨⟩, s⟩ | _ | _
  · cases hx
  · change doTransitions lib.coins tx.transitions s = _ at hx
    generalize tx.transitions = ts at hx
    clear hd h h1 hs
    induction ts generalizing s with
    | nil => intro t ht; cases ht
    | cons t ts ih =>
      simp only [doTransitions] at hx
      generalize ht : doTransition lib.coins t s = z at hx
      rcases z with ⟨e | ⟨⟩, s'⟩ | _ | _
      · cases hx
      · intro x hxm
        rcases List.mem_cons.1 hxm with rfl | hxm
        · clear ih hx hxm
          cases x with
          | createAccount a =>
            cases a with
            | none => cases ht
            | some a => exact .creates a
          | sendCoins a b c => exact .sends a b c
          | other api =>
            simp only [doTransition] at ht
            split at ht <;> cases ht
          | _ => cases ht
        · exact ih s' hx x hxm
      · cases hx
      · cases hx
  · cases hx
  · cases hx

/-- A payment was accepted. -/
example : ∃ m, Served payLib payCalls [.none, .none, .code 0] m ∧ ∃ tx, payLib.decode b!"1" = .ret (.ok tx) ∧
    ∀ t ∈ tx.transitions, CreatesOrSends t := by
  obtain ⟨m, h, _⟩ := pay_served
  exact ⟨m, h, C71_only_accounts_and_coins payLib_well starts_exec pay_before h⟩

theorem bump_type {ty : Bytes} (h : ty ≠ tyAccount) : ∀ (us : List Bytes) (m : World), bump m us ty = m ty
  | [], _ => rfl
  | u :: us, m => by
    simp only [bump]
    cases accountAt m u with
    | none => exact bump_type h us m
    | some a => exact (bump_type h us _).trans (put_ne h _ _ _)

/-- **C71** Delivering a transaction, whatever is in it and whatever the answer, changes no object
of a type other than accounts, the number of the next account, role bindings and balances: roles,
module descriptors, validator updates, parameters, stage and block information are out of reach.
Existing role bindings stay as they are. -/
theorem C71_reach (hw : DecodesWell lib) {calls : List (Call BlockReq)} {rs : List (Resp Obj)}
    {bytes : Bytes} {r : Resp Obj} (hs : Starts calls) (h : Served lib calls rs m)
    (h1 : Served lib (calls ++ [.deliverTx bytes]) (rs ++ [r]) m₁) :
    (∀ ty, ty ∉ txTypes → m₁ ty = m ty) ∧
    ∀ k o, m tyRoleBinding k = some o → m₁ tyRoleBinding k = some o := by
  obtain ⟨hi, hr⟩ := served_between hw hs h h1
  cases hr with
  | cons h2 h3 =>
    cases h3
    cases h2 with
    | undecodable => exact ⟨fun _ _ => rfl, fun _ _ h => h⟩
    | unauthenticated => exact ⟨fun _ _ => rfl, fun _ _ h => h⟩
    | executed _ _ tx _ _ _ hx =>
      have hf := tx_frame hi hx
      refine ⟨fun ty hty => ?_, fun k o hk => ?_⟩
      · rw [hf.rest ty hty, bump_type fun e => hty (by rw [e]; decide)]
      · exact hf.bindings k o (by rw [bump_type (by decide)]; exact hk)

/-- **C71** CheckTx and queries change nothing. -/
theorem C71_read_only (hw : DecodesWell lib) {calls : List (Call BlockReq)} {rs : List (Resp Obj)}
    {call : Call BlockReq} {r : Resp Obj} (hs : Starts calls) (h : Served lib calls rs m)
    (hc : (∃ b, call = .checkTx b) ∨ (∃ p, call = .query p) ∨ call = .info ∨ call = .commit)
    (h1 : Served lib (calls ++ [call]) (rs ++ [r]) m₁) : m₁ = m := by
  obtain ⟨_, hr⟩ := served_between hw hs h h1
  cases hr with
  | cons h2 h3 =>
    cases h3
    rcases hc with ⟨b, rfl⟩ | ⟨p, rfl⟩ | rfl | rfl <;> cases h2 <;> rfl

/-- Something did change, and something could not. -/
example : ∃ m, Served payLib payCalls [.none, .none, .code 0] m ∧ m ≠ payBefore ∧ m tyRole = payBefore tyRole := by
  obtain ⟨m, h, hb⟩ := pay_served
  refine ⟨m, h, fun e => ?_, (C71_reach payLib_well starts_exec pay_before h).1 _ (by decide)⟩
  rw [e] at hb
  exact absurd hb (by decide +kernel)

end Verif.Props
