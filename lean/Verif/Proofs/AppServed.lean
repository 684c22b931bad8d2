import Verif.Proofs.AppReach
import Verif.Proofs.TestApp
/-! # Histories of the application on the object store -/

namespace Verif
open Spec

variable {lib : Libs} {m m' : World}

theorem onStore_ormApp : onStore (ormApp lib) (mapOps appReg) = mapApp lib := rfl

/-- Histories on the object store are histories on the map. -/
theorem served_map {calls : List (Call BlockReq)} {rs : List (Resp Obj)} (h : Served lib calls rs m) :
    ∃ n e i, 10 ≤ n ∧ (mapApp lib).steps n idle calls = .done rs ⟨m, e, i⟩ := by
  obtain ⟨n, a, h, rfl⟩ := h
  obtain ⟨m', h1, rfl⟩ := Props.C61_application_on_a_map (c := ormApp lib) rfl app_regOk h
  rw [onStore_ormApp, show (⟨Contents.empty, false, false⟩ : App World) = idle from rfl] at h1
  refine ⟨n + 10, a.enabled, a.initialized, by omega, ?_⟩
  exact (Props.C61_bound_irrelevant (c := mapApp lib) (n := n) (by omega) (by rw [h1]; simp)).trans h1

theorem steps_append {S O T R B : Type} [StateObject O] [StateTransition T] {c : Config S O T R B} {n : Nat} :
    ∀ {c₁ c₂ : List (Call B)} {a : App S} {rs : List (Resp O)} {a' : App S},
    c.steps n a (c₁ ++ c₂) = .done rs a' →
    ∃ rs₁ rs₂ a₁, c.steps n a c₁ = .done rs₁ a₁ ∧ c.steps n a₁ c₂ = .done rs₂ a' ∧ rs = rs₁ ++ rs₂
  | [], c₂, a, rs, a', h => ⟨[], rs, a, rfl, h, rfl⟩
  | x :: c₁, c₂, a, rs, a', h => by
    simp only [List.cons_append, Config.steps] at h ⊢
    split at h
    · cases h
    · cases h
    · rename_i r a₁ h1
      split at h
      · cases h
      · cases h
      · rename_i rs' a₂ h2
        cases h
        obtain ⟨rs₁, rs₂, a₃, h3, h4, rfl⟩ := steps_append h2
        exact ⟨r :: rs₁, rs₂, a₃, by simp only [h3], h4, rfl⟩

theorem steps_length {S O T R B : Type} [StateObject O] [StateTransition T] {c : Config S O T R B} {n : Nat} :
    ∀ {cs : List (Call B)} {a : App S} {rs : List (Resp O)} {a' : App S},
    c.steps n a cs = .done rs a' → rs.length = cs.length
  | [], a, rs, a', h => by cases h; rfl
  | x :: cs, a, rs, a', h => by
    simp only [Config.steps] at h
    split at h
    · cases h
    · cases h
    · split at h
      · cases h
      · cases h
      · rename_i h2
        cases h
        simp [steps_length h2]

/-- The served histories are exactly those of the state machine. -/
theorem served_iff (hw : DecodesWell lib) {calls : List (Call BlockReq)} {rs : List (Resp Obj)} :
    Served lib calls rs m ↔ (m = Contents.empty ∧ RunIdle lib calls rs) ∨
    ∃ pre rs₀ c post rs', calls = pre ++ .initChain c [] :: post ∧ rs = rs₀ ++ .none :: rs' ∧
      RunIdle lib pre rs₀ ∧ validUtf8 c = true ∧ Spec.Run lib (genesisWorld lib c) post rs' m := by
  constructor
  · intro h
    obtain ⟨n, e, i, hn, h1⟩ := served_map h
    rcases (steps_idle hw hn).1 h1 with ⟨ha, hr⟩ | ⟨pre, rs₀, c, post, rs', m, rfl, rfl, hp, hu, ha, hr⟩
    · cases ha
      exact .inl ⟨rfl, hr⟩
    · cases ha
      exact .inr ⟨pre, rs₀, c, post, rs', rfl, rfl, hp, hu, hr⟩
  · intro h
    have : ∃ a, (mapApp lib).steps 10 idle calls = .done rs a ∧ a.store = m := by
      rcases h with ⟨rfl, h⟩ | ⟨pre, rs₀, c, post, rs', rfl, rfl, hp, hu, hr⟩
      · exact ⟨idle, (steps_idle hw (Nat.le_refl 10)).2 (.inl ⟨rfl, h⟩), rfl⟩
      · exact ⟨⟨m, true, true⟩, (steps_idle hw (Nat.le_refl 10)).2
          (.inr ⟨pre, rs₀, c, post, rs', m, rfl, rfl, hp, hu, rfl, hr⟩), rfl⟩
    obtain ⟨a, h1, rfl⟩ := this
    obtain ⟨s, h2, h3⟩ := Props.C61_map_application_on_store (c := ormApp lib) rfl app_regOk h1
    exact ⟨10, _, h2, h3⟩

theorem runIdle_starts {calls : List (Call BlockReq)} {rs : List (Resp Obj)} (h : RunIdle lib calls rs) :
    ¬ Starts calls := by
  induction h with
  | nil => rintro ⟨c, st, h⟩; cases h
  | cons h1 _ ih =>
    rintro ⟨c, st, hm⟩
    rcases List.mem_cons.1 hm with rfl | hm
    · cases h1
    · exact ih ⟨c, st, hm⟩

theorem runIdle_length {calls : List (Call BlockReq)} {rs : List (Resp Obj)} (h : RunIdle lib calls rs) :
    rs.length = calls.length := by
  induction h with
  | nil => rfl
  | cons _ _ ih => simp [ih]

/-- Where the state of a served history comes from. -/
theorem served_run (hw : DecodesWell lib) {calls : List (Call BlockReq)} {rs : List (Resp Obj)}
    (h : Served lib calls rs m) :
    (m = Contents.empty ∧ ¬ Starts calls) ∨
    ∃ pre rs₀ c post rs', calls = pre ++ .initChain c [] :: post ∧ rs = rs₀ ++ .none :: rs' ∧
      rs₀.length = pre.length ∧ ¬ Starts pre ∧ validUtf8 c = true ∧ Spec.Run lib (genesisWorld lib c) post rs' m := by
  rcases (served_iff hw).1 h with ⟨rfl, hr⟩ | ⟨pre, rs₀, c, post, rs', rfl, rfl, hp, hu, hr⟩
  · exact .inl ⟨rfl, runIdle_starts hr⟩
  · exact .inr ⟨pre, rs₀, c, post, rs', rfl, rfl, runIdle_length hp, runIdle_starts hp, hu, hr⟩

theorem served_inv (hw : DecodesWell lib) {calls : List (Call BlockReq)} {rs : List (Resp Obj)}
    (hs : Starts calls) (h : Served lib calls rs m) : AppInv m := by
  rcases served_run hw h with ⟨_, hn⟩ | ⟨pre, rs₀, c, post, rs', _, _, _, _, hc, hr⟩
  · exact absurd hs hn
  · exact run_inv (genesis_inv hc) hr

/-- Two points of one history. -/
theorem served_between (hw : DecodesWell lib) {calls more : List (Call BlockReq)} {rs rs' : List (Resp Obj)}
    (hs : Starts calls) (h : Served lib calls rs m) (h' : Served lib (calls ++ more) (rs ++ rs') m') :
    AppInv m ∧ Spec.Run lib m more rs' m' := by
  have hi := served_inv hw hs h
  refine ⟨hi, ?_⟩
  obtain ⟨n, e, i, hn, h1⟩ := served_map h
  obtain ⟨n', e', i', hn', h2⟩ := served_map h'
  have l1 := (Props.C61_bound_irrelevant (c := mapApp lib) (n := n) (m := max n n') (by omega)
    (by rw [h1]; simp)).trans h1
  have l2 := (Props.C61_bound_irrelevant (c := mapApp lib) (n := n') (m := max n n') (by omega)
    (by rw [h2]; simp)).trans h2
  obtain ⟨rs₁, rs₂, a₁, k1, k2, k3⟩ := steps_append l2
  rw [l1] at k1
  cases k1
  obtain rfl : rs' = rs₂ := List.append_cancel_left k3
  have hflags : e = true ∧ i = true := by
    rcases (steps_idle hw (by omega : 10 ≤ max n n')).1 l1 with ⟨ha, hc⟩ | ⟨_, _, _, _, _, _, _, _, _, _, ha, _⟩
    · exact absurd hs (runIdle_starts hc)
    · cases ha; exact ⟨rfl, rfl⟩
  obtain ⟨rfl, rfl⟩ := hflags
  obtain ⟨m'', ha, hr⟩ := (steps_started hw (by omega) hi).1 k2
  cases ha
  exact hr

end Verif
