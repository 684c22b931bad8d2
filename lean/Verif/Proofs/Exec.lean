import Verif.Proofs.AppServed
import Verif.Proofs.SampleApp
/-! # The state machine as a function -/

namespace Verif
open Spec

variable {lib : Libs} {m m' : World}

/-- The answer to a request after the chain is started and the next state; nothing if the
application crashes. -/
def exec1 (lib : Libs) (m : World) : Call BlockReq → Option (Resp Obj × World)
  | .info => some (.none, m)
  | .commit => some (.none, m)
  | .query path => match handleQuery appReg lib.jsonFails (mapGet appReg m) path with
    | .panic => none
    | .ret (n, o) => some (.answer n o, m)
  | .checkTx bytes => match lib.decode bytes with
    | .panic => none
    | .ret (.error e) => some (.code (codeOf e), m)
    | .ret (.ok tx) => match checkOutcome lib m tx with
      | .done r m' => some (.code (resultCode r), m')
      | _ => none
  | .deliverTx bytes => match lib.decode bytes with
    | .panic => none
    | .ret (.error e) => some (.code (codeOf e), m)
    | .ret (.ok tx) => match txOutcome lib m tx with
      | .done r m' => some (.code (resultCode r), m')
      | _ => none
  | .initChain _ _ => none
  | .beginBlock b => if validUtf8 b.chainId then some (.none, doBeginBlock b m) else none
  | .endBlock h => (withKeys (storedUpdates m)).map fun us => (.updates us, doEndBlock h m)

theorem exec1_iff (hw : DecodesWell lib) {call : Call BlockReq} {r : Resp Obj} :
    exec1 lib m call = some (r, m') ↔ Serve lib m call r m' := by
  constructor
  · intro h
    cases call with
    | info => cases h; exact .info m
    | commit => cases h; exact .commit m
    | query path =>
      simp only [exec1] at h
      split at h
      · cases h
      · rename_i hq; cases h; exact .query m path _ _ hq
    | checkTx tx =>
      simp only [exec1] at h
      split at h
      · cases h
      · rename_i hd; cases h; exact .checkUndecodable m tx _ hd
      · rename_i t hd
        split at h
        · rename_i q s hq
          cases h
          rcases (checkOutcome_done (hw hd)).1 hq with ⟨rfl, ⟨⟨ha, hf⟩, rfl⟩ | ⟨ha, h2⟩⟩
          · exact .checkUnauthenticated _ tx t hd ha hf
          · exact .checked _ tx t q hd ha h2
        · cases h
    | deliverTx tx =>
      simp only [exec1] at h
      split at h
      · cases h
      · rename_i hd; cases h; exact .undecodable m tx _ hd
      · rename_i t hd
        split at h
        · rename_i q s hq
          cases h
          rcases (txOutcome_done (hw hd)).1 hq with ⟨⟨ha, hf⟩, rfl, rfl⟩ | ⟨ha, h2⟩
          · exact .unauthenticated _ tx t hd ha hf
          · exact .executed m _ tx t q hd ha h2
        · cases h
    | initChain c st => cases h
    | beginBlock b =>
      simp only [exec1] at h
      split at h
      · rename_i hb; cases h; exact .beginBlock m b hb
      · cases h
    | endBlock b =>
      simp only [exec1, Option.map_eq_some_iff] at h
      obtain ⟨us, hu, h⟩ := h
      cases h
      exact .endBlock m b us hu
  · intro h
    cases h with
    | info => rfl
    | commit => rfl
    | query path k o hq => simp only [exec1, hq]
    | checkUndecodable tx e hd => simp only [exec1, hd]
    | checkUnauthenticated tx t hd ha hf =>
      have := (checkOutcome_done (m := m) (m' := m) (hw hd)).2 ⟨rfl, .inl ⟨⟨ha, hf⟩, rfl⟩⟩
      simp only [exec1, hd, this]; rfl
    | checked tx t r hd ha h2 =>
      have := (checkOutcome_done (m := m) (m' := m) (hw hd)).2 ⟨rfl, .inr ⟨ha, h2⟩⟩
      simp only [exec1, hd, this]
    | undecodable tx e hd => simp only [exec1, hd]
    | unauthenticated tx t hd ha hf =>
      have := (txOutcome_done (m := m) (m' := m) (hw hd)).2 (.inl ⟨⟨ha, hf⟩, rfl, rfl⟩)
      simp only [exec1, hd, this]; rfl
    | executed _ tx t r hd ha h2 =>
      have := (txOutcome_done (m := m) (m' := m') (hw hd)).2 (.inr ⟨ha, h2⟩)
      simp only [exec1, hd, this]
    | beginBlock b hb => simp only [exec1, hb, if_true]
    | endBlock b us hu => simp only [exec1, hu, Option.map_some]

/-- The answers to requests after the chain is started. -/
def exec (lib : Libs) : World → List (Call BlockReq) → Option (List (Resp Obj) × World)
  | m, [] => some ([], m)
  | m, call :: calls => match exec1 lib m call with
    | none => none
    | some (r, m) => match exec lib m calls with
      | none => none
      | some (rs, m) => some (r :: rs, m)

theorem exec_iff (hw : DecodesWell lib) : ∀ {calls : List (Call BlockReq)} {m : World} {rs : List (Resp Obj)},
    exec lib m calls = some (rs, m') ↔ Spec.Run lib m calls rs m'
  | [], m, rs => by
    constructor
    · intro h; cases h; exact .nil _
    · intro h; cases h; rfl
  | call :: calls, m, rs => by
    constructor
    · intro h
      simp only [exec] at h
      split at h
      · cases h
      · rename_i h1
        split at h
        · cases h
        · rename_i h2
          cases h
          exact .cons ((exec1_iff hw).1 h1) ((exec_iff hw).1 h2)
    · intro h
      cases h with
      | cons h1 h2 => simp only [exec, (exec1_iff hw).2 h1, (exec_iff hw).2 h2]

/-- A history from the start of the chain. -/
theorem served_exec (hw : DecodesWell lib) {c : Bytes} {calls : List (Call BlockReq)} {rs : List (Resp Obj)}
    (hc : validUtf8 c = true) (h : exec lib (genesisWorld lib c) calls = some (rs, m)) :
    Served lib (.initChain c [] :: calls) (.none :: rs) m :=
  (served_iff hw).2 (.inr ⟨[], [], c, calls, rs, rfl, rfl, .nil, hc, (exec_iff hw).1 h⟩)

theorem starts_exec {c st : Bytes} {calls : List (Call BlockReq)} : Starts (.initChain c st :: calls) :=
  ⟨c, st, by simp⟩

/-- Served histories can be continued. -/
theorem served_more (hw : DecodesWell lib) {calls more : List (Call BlockReq)} {rs rs' : List (Resp Obj)}
    (hs : Starts calls) (h : Served lib calls rs m) :
    Served lib (calls ++ more) (rs ++ rs') m' ↔ Spec.Run lib m more rs' m' := by
  refine ⟨fun h' => (served_between hw hs h h').2, fun h' => ?_⟩
  rcases (served_iff hw).1 h with ⟨_, hr⟩ | ⟨pre, rs₀, c, post, rs₁, rfl, rfl, hp, hu, hr⟩
  · exact absurd hs (runIdle_starts hr)
  · refine (served_iff hw).2 (.inr ⟨pre, rs₀, c, post ++ more, rs₁ ++ rs', by simp, by simp, hp, hu, ?_⟩)
    clear hp h hs
    generalize genesisWorld lib c = g at hr
    induction hr with
    | nil => exact h'
    | cons h1 _ ih => exact .cons h1 (ih h')

/-- Where the state machine has no answer the application crashes. -/
theorem crash_iff (hw : DecodesWell lib) {calls : List (Call BlockReq)} {rs : List (Resp Obj)} {call : Call BlockReq}
    (hs : Starts calls) (h : Served lib calls rs m) {n : Nat} (hn : 10 ≤ n) :
    (ormApp lib).steps n ⟨fresh appReg, false, false⟩ (calls ++ [call]) = .panic ↔ exec1 lib m call = none := by
  have hm : (ormApp lib).steps n ⟨fresh appReg, false, false⟩ (calls ++ [call]) = .panic ↔
      (mapApp lib).steps n idle (calls ++ [call]) = .panic :=
    Props.C61_crashes_agree (c := ormApp lib) rfl app_regOk
  rw [hm]
  constructor
  · intro hp
    cases he : exec1 lib m call with
    | none => rfl
    | some q =>
      obtain ⟨r, m'⟩ := q
      have := (served_more (more := [call]) (rs' := [r]) (m' := m') hw hs h).2
        (.cons ((exec1_iff hw).1 he) (.nil _))
      obtain ⟨n', e, i, _, h1⟩ := served_map this
      have h2 := (Props.C61_bound_irrelevant (c := mapApp lib) (n := n') (m := max n n') (by omega)
        (by rw [h1]; simp)).trans h1
      have h3 := (Props.C61_bound_irrelevant (c := mapApp lib) (n := n) (m := max n n') (by omega)
        (by rw [hp]; simp)).trans hp
      rw [h2] at h3
      cases h3
  · intro he
    cases hx : (mapApp lib).steps n idle (calls ++ [call]) with
    | panic => rfl
    | diverge => exact absurd hx (steps_idle_ne hw hn _)
    | done rs' a =>
      obtain ⟨s, h1, h2⟩ := Props.C61_map_application_on_store (c := ormApp lib) rfl app_regOk hx
      have hsv : Served lib (calls ++ [call]) rs' a.store := ⟨n, _, h1, h2⟩
      obtain ⟨rs₁, rs₂, a₁, k1, k2, rfl⟩ := steps_append hx
      obtain ⟨n', e, i, _, g1⟩ := served_map h
      have e1 := (Props.C61_bound_irrelevant (c := mapApp lib) (n := n') (m := max n n') (by omega)
        (by rw [g1]; simp)).trans g1
      have e2 := (Props.C61_bound_irrelevant (c := mapApp lib) (n := n) (m := max n n') (by omega)
        (by rw [k1]; simp)).trans k1
      rw [e1] at e2
      cases e2
      have hr := (served_more hw hs h).1 hsv
      cases hr with
      | cons h3 h4 =>
        rw [(exec1_iff hw).2 h3] at he
        cases he

/-- A history has only one outcome. -/
theorem served_unique {calls : List (Call BlockReq)} {rs rs' : List (Resp Obj)}
    (h : Served lib calls rs m) (h' : Served lib calls rs' m') : rs = rs' ∧ m = m' := by
  obtain ⟨n, a, h1, rfl⟩ := h
  obtain ⟨n', a', h2, rfl⟩ := h'
  have e1 := (Props.C61_bound_irrelevant (c := ormApp lib) (n := n) (m := max n n') (by omega)
    (by rw [h1]; simp)).trans h1
  have e2 := (Props.C61_bound_irrelevant (c := ormApp lib) (n := n') (m := max n n') (by omega)
    (by rw [h2]; simp)).trans h2
  rw [e1] at e2
  cases e2
  exact ⟨rfl, rfl⟩

/-- The beginning of a history. -/
theorem served_prefix {calls more : List (Call BlockReq)} {rs : List (Resp Obj)}
    (h : Served lib (calls ++ more) rs m') :
    ∃ m rs₁ rs₂, rs = rs₁ ++ rs₂ ∧ rs₁.length = calls.length ∧ Served lib calls rs₁ m := by
  obtain ⟨n, a, h1, rfl⟩ := h
  obtain ⟨rs₁, rs₂, a₁, k1, k2, k3⟩ := steps_append h1
  exact ⟨_, rs₁, rs₂, k3, steps_length k1, n, a₁, k1, rfl⟩

/-! ## Checking sample histories by evaluation -/

/-- The responses are these, not counting answers to queries and validator updates. -/
def sameResps : List (Resp Obj) → List (Resp Obj) → Bool
  | [], [] => true
  | .none :: l, .none :: l' => sameResps l l'
  | .code n :: l, .code n' :: l' => n == n' && sameResps l l'
  | .updates [] :: l, .updates [] :: l' => sameResps l l'
  | _, _ => false

theorem sameResps_eq {l l' : List (Resp Obj)} : sameResps l l' = true → l = l' := by
  fun_induction sameResps l l' with
  | case1 => exact fun _ => rfl
  | case2 l l' ih => exact fun h => by rw [ih h]
  | case3 n l n' l' ih =>
    intro h
    rw [Bool.and_eq_true, beq_iff_eq] at h
    rw [h.1, ih h.2]
  | case4 l l' ih => exact fun h => by rw [ih h]
  | case5 => exact fun h => by cases h

/-- The requests, after the start of the sample chain, are answered by `rs`, and lead to a state
with `P`. -/
def leadsTo (lib : Libs) (calls : List (Call BlockReq)) (rs : List (Resp Obj)) (P : World → Bool) : Bool :=
  match exec lib (genesisWorld lib sampleChain) calls with
  | some (rs', m) => sameResps rs' rs && P m
  | none => false

theorem leadsTo_served (hw : DecodesWell lib) {calls : List (Call BlockReq)} {rs : List (Resp Obj)}
    {P : World → Bool} (h : leadsTo lib calls rs P = true) :
    ∃ m, Served lib (.initChain sampleChain [] :: calls) (.none :: rs) m ∧ P m = true := by
  simp only [leadsTo] at h
  split at h
  · rename_i rs' m he
    rw [Bool.and_eq_true] at h
    cases sameResps_eq h.1
    exact ⟨m, served_exec hw rfl he, h.2⟩
  · cases h

end Verif
