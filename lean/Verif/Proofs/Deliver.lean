import Verif.Spec.Stages
import Verif.Proofs.Exec
import Verif.Proofs.AppFacts
/-! # Requests to set validator updates -/

set_option linter.unusedSectionVars false
set_option linter.unusedSimpArgs false

namespace Verif
open Spec

variable {lib : Libs} {m m' : World}

theorem Spec.AppInv.putUpdates (hi : AppInv m) (l : List StoredUpdate) :
    AppInv (m.put tyValidatorUpdates singletonID (some (.validatorUpdates l))) where
  toRolesInv := hi.toRolesInv.put (by decide) (by decide)
  others := by rw [put_ne (by decide)]; exact hi.others
  accounts := by rw [put_ne (by decide), put_ne (by decide)]; exact hi.accounts
  balances := by rw [put_ne (by decide)]; exact hi.balances
  number := by rw [put_ne (by decide)]; exact hi.number
  params := by rw [put_ne (by decide)]; exact hi.params
  height := by rw [put_ne (by decide)]; exact hi.height
  stage := by rw [put_ne (by decide)]; exact hi.stage
  chainId := by rw [put_ne (by decide)]; exact hi.chainId
  updates := ⟨l, by rw [put_same]; simp⟩
  beginState := by rw [put_ne (by decide)]; exact hi.beginState
  endState := by rw [put_ne (by decide)]; exact hi.endState
  mods := by rw [put_ne (by decide)]; exact hi.mods
  storable := storable_put hi.storable rfl

/-- The request in a started chain. -/
theorem deliver_updates (hi : AppInv m) (n : Nat) (skip : Bool) (users : Users) (l : List StoredUpdate) :
    adeliver lib (n + 1) skip users (.setValidatorUpdates l) m =
      match (asys lib).authorized m .deliver (tname (T := Tr) (.setValidatorUpdates l)) users with
      | .panic => .panic
      | .ret (.error e) => .done (.error e) m
      | .ret (.ok ()) =>
        if stage m ≠ .initChain ∧ stage m ≠ .endBlock then .done (.error .other) m
        else .done (.ok ()) (m.put tyValidatorUpdates singletonID (some (.validatorUpdates l))) := by
  have h0 : (appRouter lib).getAdmission (tname (T := Tr) (.setValidatorUpdates l)) = .ok [] := rfl
  cases ha : (asys lib).authorized m .deliver (tname (T := Tr) (.setValidatorUpdates l)) users with
  | panic =>
    cases skip
    · simp only [adeliver, deliver, admissionChain, h0, runAll, Bool.false_eq_true, if_false, deliverAdmitted, ha]
    · simp only [adeliver, deliver, if_true, deliverAdmitted, ha]
  | ret r =>
    rcases r with e | ⟨⟩
    · cases skip
      · simp only [adeliver, deliver, admissionChain, h0, runAll, Bool.false_eq_true, if_false]
        exact deliverAdmitted_denied ha
      · exact deliver_denied ha
    · refine (deliver_exec (router := appRouter lib) (t := .setValidatorUpdates l)
        (h := ⟨userABCI, setValidatorUpdatesExec⟩) h0 rfl rfl rfl ha).trans ?_
      simp only [setValidatorUpdatesExec]
      rw [run_getStage (lib := lib) hi]
      dsimp only
      split
      · rfl
      · obtain ⟨l₀, hl⟩ := hi.updates
        exact (run_updateABCI (lib := lib) hi (o := .validatorUpdates l) (of_decide_eq_true rfl) rfl
          (isSome_of ⟨_, hl⟩) rfl _).trans rfl

/-- The request before the chain is started fails. -/
theorem deliver_updates_idle (n : Nat) (skip : Bool) (users : Users) (l : List StoredUpdate) :
    (mapApp lib).deliver (n + 1) false skip users (.setValidatorUpdates l) Contents.empty =
      .done (.error .notFound) Contents.empty := by
  cases skip <;> rfl

theorem serve_stage (hi : AppInv m) {call : Call BlockReq} {r : Resp Obj} (h : Serve lib m call r m') :
    stage m' = lastStage (stage m) [.call call r] := by
  cases h with
  | executed bytes tx r h1 h2 _ h =>
    have : m' tyStage = m tyStage := tx_rest hi h (by decide)
    simp only [stage, this, lastStage]
  | beginBlock b =>
    simp only [lastStage, stage, doBeginBlock]
    rw [put_ne (by decide), put_ne (by decide), put_same]; simp
  | endBlock b =>
    simp only [lastStage, stage, doEndBlock]
    rw [put_ne (by decide), put_same]; simp
  | _ => rfl

/-- What is known after a history: before the start nothing is stored; afterwards the stage and
the updates are the last ones. -/
structure Tracks (lib : Libs) (st : Stage) (l : List StoredUpdate) (a : App (Store Obj)) (m : World) : Prop where
  view : ViewRel appReg a.store m
  state : (a.enabled = false ∧ a.initialized = false ∧ m = Contents.empty ∧ st = .unknown ∧ l = []) ∨
    (a.enabled = true ∧ a.initialized = true ∧ AppInv m ∧ stage m = st ∧
      m tyValidatorUpdates singletonID = some (.validatorUpdates l))

theorem tracks_unstarted : Tracks lib .unknown [] unstarted Contents.empty :=
  ⟨⟨Inv.init app_regOk, rfl, view_init _⟩, .inl ⟨rfl, rfl, rfl, rfl, rfl⟩⟩

theorem genesis_updates (c : Bytes) :
    genesisWorld lib c tyValidatorUpdates singletonID = some (.validatorUpdates []) := rfl

theorem genesis_stage (c : Bytes) : stage (genesisWorld lib c) = .initChain := rfl

theorem tracks_call (hw : DecodesWell lib) {st : Stage} {l : List StoredUpdate} {a a' : App (Store Obj)} {n : Nat}
    {c : Call BlockReq} {r : Resp Obj} (h : Tracks lib st l a m) (hs : (ormApp lib).step n a c = .done r a') :
    ∃ m', Tracks lib (lastStage st [.call c r]) l a' m' ∧
      (∀ h, c = .endBlock h → ∃ us, withKeys l = some us ∧ r = .updates us) := by
  have hsim : AppSim (ViewRel appReg) a ⟨m, a.enabled, a.initialized⟩ := ⟨h.view, rfl, rfl⟩
  rcases (Config.step_same (c := ormApp lib) (storeSim_orm appReg) (n := n) (x := c) hsim).cases with
    ⟨r', a₁, b₁, h1, h2, hq⟩ | ⟨h1, h2⟩ | ⟨h1, h2⟩
  · rw [hs] at h1
    cases h1
    rw [onStore_ormApp] at h2
    have h3 : (mapApp lib).step (n + 10) ⟨m, a.enabled, a.initialized⟩ c = .done r b₁ := by
      rcases Config.step_le (c := mapApp lib) (n := n) (m := n + 10) (by omega)
        ⟨m, a.enabled, a.initialized⟩ c with hx | hx
      · rw [h2] at hx; cases hx
      · rw [← hx, h2]
    rcases h.state with ⟨e1, e2, rfl, rfl, rfl⟩ | ⟨e1, e2, hi, rfl, hl⟩
    · rw [e1, e2] at h3
      rcases (step_idle hw (by omega)).1 h3 with ⟨rfl, hx⟩ | ⟨id, rfl, hu, rfl, rfl⟩
      · refine ⟨Contents.empty, ⟨hq.store, .inl ⟨hq.enabled, hq.initialized, rfl, ?_, rfl⟩⟩, ?_⟩
        · cases hx <;> rfl
        · rintro k rfl; cases hx
      · exact ⟨_, ⟨hq.store, .inr ⟨hq.enabled, hq.initialized, genesis_inv hu, rfl, rfl⟩⟩,
          fun k hk => by cases hk⟩
    · rw [e1, e2] at h3
      obtain ⟨m', rfl, hx⟩ := (step_started hw hi (by omega)).1 h3
      refine ⟨m', ⟨hq.store, .inr ⟨hq.enabled, hq.initialized, serve_inv hi hx, serve_stage hi hx, ?_⟩⟩, ?_⟩
      · rw [serve_updates hi hx, hl]
      · rintro k rfl
        cases hx with
        | endBlock _ us hu =>
          refine ⟨us, ?_, rfl⟩
          simpa only [storedUpdates, hl] using hu
  · rw [hs] at h1; cases h1
  · rw [hs] at h1; cases h1

theorem tracks_set {st : Stage} {l l' : List StoredUpdate} {a : App (Store Obj)} {n : Nat} {skip : Bool}
    {users : Users} {r : Except Err Unit} {s : Store Obj} (h : Tracks lib st l a m)
    (hs : (ormApp lib).deliver n a.enabled skip users (.setValidatorUpdates l') a.store = .done r s) :
    ∃ m', Tracks lib st (lastSet l [.setUpdates users l' r]) { a with store := s } m' ∧
      (r = .ok () → st = .initChain ∨ st = .endBlock) := by
  obtain ⟨n, rfl⟩ : ∃ k, n = k + 1 := by
    cases n with
    | zero => cases hs
    | succ k => exact ⟨k, rfl⟩
  rcases (Config.deliver_same (c := ormApp lib) (storeSim_orm appReg) (n := n + 1) (en := a.enabled)
    (skip := skip) (users := users) (t := .setValidatorUpdates l') h.view).cases with
    ⟨r', s₁, m₁, h1, h2, hq⟩ | ⟨h1, h2⟩ | ⟨h1, h2⟩
  · rw [hs] at h1
    cases h1
    rw [onStore_ormApp] at h2
    rcases h.state with ⟨e1, e2, rfl, rfl, rfl⟩ | ⟨e1, e2, hi, rfl, hl⟩
    · rw [e1, deliver_updates_idle] at h2
      cases h2
      exact ⟨_, ⟨hq, .inl ⟨e1, e2, rfl, rfl, rfl⟩⟩, fun h => by cases h⟩
    · rw [e1] at h2
      have h3 : adeliver lib (n + 1) skip users (.setValidatorUpdates l') m = .done r m₁ := h2
      rw [deliver_updates hi] at h3
      split at h3
      · cases h3
      · cases h3
        exact ⟨m, ⟨hq, .inr ⟨e1, e2, hi, rfl, hl⟩⟩, fun h => by cases h⟩
      · split at h3
        · cases h3
          exact ⟨m, ⟨hq, .inr ⟨e1, e2, hi, rfl, hl⟩⟩, fun h => by cases h⟩
        · rename_i hst
          cases h3
          refine ⟨_, ⟨hq, .inr ⟨e1, e2, hi.putUpdates l', ?_, ?_⟩⟩, fun _ => ?_⟩
          · simp only [stage]; rw [put_ne (by decide)]
          · rw [put_same]; simp [lastSet]
          · rw [Classical.not_and_iff_not_or_not, Classical.not_not, Classical.not_not] at hst
            exact hst
  · rw [hs] at h1; cases h1
  · rw [hs] at h1; cases h1

theorem lastSet_append (hs₁ hs₂ : List Happening) : ∀ l, lastSet l (hs₁ ++ hs₂) = lastSet (lastSet l hs₁) hs₂ := by
  induction hs₁ with
  | nil => intro l; rfl
  | cons x xs ih =>
    intro l
    rcases x with ⟨c, r⟩ | ⟨us, l', e | ⟨⟩⟩ <;> simp only [List.cons_append, lastSet, ih]

theorem lastStage_append (hs₁ hs₂ : List Happening) :
    ∀ s, lastStage s (hs₁ ++ hs₂) = lastStage (lastStage s hs₁) hs₂ := by
  induction hs₁ with
  | nil => intro l; rfl
  | cons x xs ih =>
    intro l
    rcases x with ⟨c | _ | _ | _ | _ | _ | _ | _, r⟩ | ⟨us, l', e | ⟨⟩⟩ <;>
      simp only [List.cons_append, lastStage, ih]

theorem happens_tracks (hw : DecodesWell lib) {a a' : App (Store Obj)} {hs : List Happening}
    (h : Happens lib a hs a') : ∀ {st : Stage} {l : List StoredUpdate} {m : World}, Tracks lib st l a m →
    ∃ m', Tracks lib (lastStage st hs) (lastSet l hs) a' m' := by
  induction h with
  | nil => intro st l m h; exact ⟨m, h⟩
  | @call a a₁ a' n c r hs h1 _ ih =>
    intro st l m h
    obtain ⟨m', h', _⟩ := tracks_call hw h h1
    obtain ⟨m'', h''⟩ := ih h'
    refine ⟨m'', ?_⟩
    have e1 := lastStage_append [.call c r] hs st
    have e2 := lastSet_append [.call c r] hs l
    simp only [List.cons_append, List.nil_append] at e1 e2
    rw [e1, e2]; exact h''
  | @setUpdates a a' s n skip us l' r hs h1 _ ih =>
    intro st l m h
    obtain ⟨m', h', _⟩ := tracks_set h h1
    obtain ⟨m'', h''⟩ := ih h'
    refine ⟨m'', ?_⟩
    have e2 := lastSet_append [.setUpdates us l' r] hs l
    simp only [List.cons_append, List.nil_append] at e2
    rw [e2]; exact h''

end Verif
