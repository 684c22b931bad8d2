import Verif.Proofs.Sim
import Verif.Proofs.Fuel
import Verif.Proofs.Sample
import Verif.Spec.Toy
/-!
# Properties of the runtime and the ABCI application: C19–C22, C24, C25, C28, C29, C61

The runtime is generic: every theorem holds for arbitrary modules, handlers, authorizers,
stores and transactions.  `sys.enabled` is the authorization flag; the first number given to
`deliver` bounds the nesting of deliveries and is arbitrary.
-/

set_option linter.unusedSectionVars false

namespace Verif.Props
open Verif Spec
variable {S O T R B : Type} [StateObject O] [StateTransition T]

/-! ## C19 -/

/-- **C19** Delivering a transition without an execution handler returns an error and leaves the
state unchanged.  (If admission is skipped the authorizer is asked first; the theorem assumes
that it answers.) -/
theorem C19_unknown_transition_no_effect {sys : Sys S O} {router : Router O T R} {t : T}
    (h : ∀ e ∈ router.exec, e.1 ≠ tname t) (n : Nat) (skip : Bool) (users : Users) (s : S)
    (ha : skip = true → sys.authorized s .deliver (tname t) users ≠ .panic) :
    ∃ e, deliver sys router (n + 1) skip users t s = .done (.error e) s ∧
      (e = .transitionNotFound ∨ skip = true ∧ e = .unauthorized) := by
  have hk : router.known (tname t) = false := by
    simp only [Router.known, Option.isSome_eq_false_iff, Option.isNone_iff_eq_none,
      List.find?_eq_none, decide_eq_true_eq]
    exact h
  cases skip with
  | false =>
    refine ⟨.transitionNotFound, ?_, .inl rfl⟩
    simp [deliver, admissionChain, Router.getAdmission, hk]
  | true =>
    simp only [deliver, if_true, deliverAdmitted]
    cases hauth : sys.authorized s .deliver (tname t) users with
    | panic => exact absurd hauth (ha rfl)
    | ret r =>
      cases r with
      | error e =>
        refine ⟨e, rfl, ?_⟩
        simp only [Sys.authorized] at hauth
        split at hauth
        · cases hauth
        · split at hauth <;> simp_all
      | ok u =>
        refine ⟨.transitionNotFound, ?_, .inl rfl⟩
        simp [Router.getPre, hk, runAll, Router.getExec_error hk]

example : (∀ e ∈ toyRouter.exec, e.1 ≠ tname Toy.unknown) ∧
    (toyApp.sys true).authorized (fresh sampleReg) .deliver (tname Toy.unknown) [b!"ann"] ≠ .panic := by
  decide

/-! ## C20 -/

/-- **C20** With authorization enabled, delivering a transition changes the state only by writes
that the authorizer allowed to the module making them. -/
theorem C20_deliver_only_allowed_writes {sys : Sys S O} {router : Router O T R}
    (he : sys.enabled = true) {n : Nat} {skip : Bool} {users : Users} {t : T} {s s' : S}
    {r : Except Err Unit} (h : deliver sys router n skip users t s = .done r s') :
    AllowedWrites sys (owners router) s s' :=
  deliver_rel (AllowedWrites.preorder _ _) (fun _ hm => AllowedWrites.client he hm) n h

theorem rel_of_step {c : Config S O T R B} {W : S → S → Prop} (hW : Preorder' W) {a a' : App S}
    (hc : ∀ m ∈ owners c.router, ClientRel (c.sys a.enabled) [m] W) {n : Nat} {call : Call B}
    {r : Resp O} (hcall : ∀ id st, call ≠ .initChain id st) (h : c.step n a call = .done r a') :
    W a.store a'.store ∧ a'.enabled = a.enabled ∧ a'.initialized = a.initialized := by
  have hadm : ∀ hd ∈ c.router.authAdmission, hd.owner ∈ owners c.router := by
    intro hd hm; simp only [owners, List.mem_append, List.mem_map]
    exact .inl (.inl (.inl (.inl (.inl ⟨_, hm, rfl⟩))))
  have hpost : ∀ hd ∈ c.router.postAuth, hd.owner ∈ owners c.router := by
    intro hd hm; simp only [owners, List.mem_append, List.mem_map]
    exact .inl (.inl (.inl (.inl (.inr ⟨_, hm, rfl⟩))))
  have hdel : ∀ {skip u t s r s'}, c.deliver n a.enabled skip u t s = .done r s' → W s s' :=
    fun h => deliver_rel hW hc n h
  cases call with
  | info => simp only [Config.step, Res.done.injEq] at h; rw [← h.2]; exact ⟨hW.refl _, rfl, rfl⟩
  | commit => simp only [Config.step, Res.done.injEq] at h; rw [← h.2]; exact ⟨hW.refl _, rfl, rfl⟩
  | query p =>
    simp only [Config.step] at h
    split at h
    · cases h
    · simp only [Res.done.injEq] at h; rw [← h.2]; exact ⟨hW.refl _, rfl, rfl⟩
  | initChain id st => exact absurd rfl (hcall id st)
  | beginBlock b =>
    simp only [Config.step, Config.beginBlock] at h
    split at h
    · cases h
    · split at h
      · cases h
      · cases h
      · cases h
      · rename_i s₁ hx
        simp only [Config.mapRes, Res.done.injEq] at h
        rw [← h.2]; exact ⟨hdel hx, rfl, rfl⟩
  | endBlock b =>
    simp only [Config.step, Config.endBlock] at h
    split at h
    · cases h
    · cases h
    · cases h
    · rename_i s₁ hx
      split at h
      · cases h
      · cases h
      · split at h
        · cases h
        · simp only [Config.mapRes, Res.done.injEq] at h
          rw [← h.2]; exact ⟨hdel hx, rfl, rfl⟩
  | checkTx tx =>
    simp only [Config.step, Config.checkTx] at h
    split at h
    · cases h
    split at h
    · cases h
    · simp only [Config.mapRes, Res.done.injEq] at h; rw [← h.2]; exact ⟨hW.refl _, rfl, rfl⟩
    split at h
    · cases h
    · cases h
    · rename_i e s₁ hx
      simp only [Config.mapRes, Res.done.injEq] at h
      rw [← h.2]; exact ⟨txChain_rel hW hc hadm hx, rfl, rfl⟩
    rename_i s₁ hx
    have w1 := txChain_rel hW hc hadm hx
    have hadm2 : ∀ {l : List T} {u : Users} {s r s'}, runAll (fun t s => admissionChain c.router
        (fun hd s => c.runAs n a.enabled hd.owner (hd.code u t) s) t s) id l s = .done r s' → W s s' := by
      intro l u s r s' hh
      refine runAll_rel hW (fun t _ {s r s'} hh => ?_) hh
      refine admissionChain_rel hW (fun hd hm {s r s'} hh => ?_) hh
      exact Prog.run_rel hW (hc _ (mem_owners_admission hm)) (fun hh => hdel hh) _ hh
    split at h
    · cases h
    · cases h
    · rename_i e s₂ hx2
      simp only [Config.mapRes, Res.done.injEq] at h
      rw [← h.2]; exact ⟨hW.trans w1 (hadm2 hx2), rfl, rfl⟩
    · rename_i s₂ hx2
      simp only [Config.mapRes, Res.done.injEq] at h
      rw [← h.2]; exact ⟨hW.trans w1 (hadm2 hx2), rfl, rfl⟩
  | deliverTx tx =>
    simp only [Config.step, Config.deliverTx] at h
    split at h
    · cases h
    split at h
    · cases h
    · simp only [Config.mapRes, Res.done.injEq] at h; rw [← h.2]; exact ⟨hW.refl _, rfl, rfl⟩
    split at h
    · cases h
    · cases h
    · rename_i e s₁ hx
      simp only [Config.mapRes, Res.done.injEq] at h
      rw [← h.2]; exact ⟨txChain_rel hW hc hadm hx, rfl, rfl⟩
    rename_i s₁ hx
    have w1 := txChain_rel hW hc hadm hx
    split at h
    · cases h
    · cases h
    · rename_i e s₂ hx2
      simp only [Config.mapRes, Res.done.injEq] at h
      rw [← h.2]; exact ⟨hW.trans w1 (txChain_rel hW hc hpost hx2), rfl, rfl⟩
    rename_i s₂ hx2
    have w2 := hW.trans w1 (txChain_rel hW hc hpost hx2)
    have hdel2 : ∀ {l : List T} {u : Users} {s r s'},
        runAll (fun t s => c.deliver n a.enabled true u t s) id l s = .done r s' → W s s' := by
      intro l u s r s' hh
      exact runAll_rel hW (fun t _ {s r s'} hh => hdel hh) hh
    split at h
    · cases h
    · cases h
    · rename_i e s₃ hx3
      simp only [Config.mapRes, Res.done.injEq] at h
      rw [← h.2]; exact ⟨hW.trans w2 (hdel2 hx3), rfl, rfl⟩
    · rename_i s₃ hx3
      simp only [Config.mapRes, Res.done.injEq] at h
      rw [← h.2]; exact ⟨hW.trans w2 (hdel2 hx3), rfl, rfl⟩

/-- **C20** Once authorization is enabled, whatever the consensus engine requests (other than
initialising the chain), the state changes only by writes that the authorizer allowed to the
module making them, and authorization stays enabled. -/
theorem C20_requests_only_allowed_writes {c : Config S O T R B} {a a' : App S} (he : a.enabled = true)
    {n : Nat} {call : Call B} {r : Resp O} (hcall : ∀ id st, call ≠ .initChain id st)
    (h : c.step n a call = .done r a') :
    AllowedWrites (c.sys true) (owners c.router) a.store a'.store ∧ a'.enabled = true := by
  have hc : ∀ m ∈ owners c.router, ClientRel (c.sys a.enabled) [m]
      (AllowedWrites (c.sys true) (owners c.router)) := by
    rw [he]; exact fun m hm => AllowedWrites.client rfl hm
  have := rel_of_step (AllowedWrites.preorder (c.sys true) (owners c.router)) hc hcall h
  exact ⟨this.1, this.2.1.trans he⟩

/-- **C20** A successful delivery was allowed to the acting users; more exactly, the authorizer
allowed it in the state left by the admission handlers. -/
theorem C20_delivered_only_if_allowed {sys : Sys S O} {router : Router O T R}
    (he : sys.enabled = true) {n : Nat} {skip : Bool} {users : Users} {t : T} {s s' : S}
    (h : deliver sys router n skip users t s = .done (.ok ()) s') :
    ∃ s₁, Allows sys s₁ .deliver (tname t) users ∧ (skip = true → s₁ = s) ∧
      ((∀ hd ∈ router.admission, ReadOnly (hd.2.code users t)) → s₁ = s) := by
  cases n with
  | zero => simp [deliver] at h
  | succ n =>
    have key : ∀ {run : Handler O T → S → Res S (Except Err Unit)} {s₁ : S},
        deliverAdmitted sys router run users t s₁ = .done (.ok ()) s' →
        Allows sys s₁ .deliver (tname t) users := by
      intro run s₁ h
      simp only [deliverAdmitted] at h
      split at h
      · cases h
      · cases h
      · rename_i ha; exact (Sys.authorized_ok he).1 ha
    simp only [deliver] at h
    split at h
    · exact ⟨s, key h, fun _ => rfl, fun _ => rfl⟩
    · rename_i hs
      split at h
      · cases h
      · cases h
      · cases h
      · rename_i s₁ hx
        refine ⟨s₁, key h, fun e => absurd e hs, fun hro => ?_⟩
        refine (admissionChain_rel (W := fun a b => b = a) ⟨fun _ => rfl, fun h1 h2 => h2.trans h1⟩
          (fun hd hm {s r s'} hh => ?_) hx)
        exact ReadOnly.run_eq (hro _ (HandlerMap.mem_at hm)) hh

/-- The hypotheses are met: "ann" puts a post in the toy application. -/
example : ∃ s', deliver (toyApp.sys true) toyRouter 1 false [b!"ann"] (.put b!"p" b!"ann")
    (fresh sampleReg) = .done (.ok ()) s' ∧ (toyApp.sys true).enabled = true := ⟨_, rfl, rfl⟩

example : ∃ a', toyApp.step 1 ⟨fresh sampleReg, true, true⟩ (.deliverTx b!"hello") =
    .done (.code 0) a' ∧ a'.store.get postApi.name b!"hello" = .ok (post b!"hello" b!"ann" 0) :=
  ⟨_, rfl, rfl⟩

/-! ## C21 -/

/-- **C21** A create, update or delete that the authorizer denies (or fails on) returns an
unauthorized error and changes nothing. -/
theorem C21_denied_write_no_effect {sys : Sys S O} (he : sys.enabled = true) {users : Users} {o : O}
    {s : S} :
    (∀ d, sys.authorizer (sys.get s) .create (StateObject.api o).name users = .ret d → d ≠ .ok true →
      sys.create users o s = .ret (.error .unauthorized, s)) ∧
    (∀ d, sys.authorizer (sys.get s) .update (StateObject.api o).name users = .ret d → d ≠ .ok true →
      sys.update users o s = .ret (.error .unauthorized, s)) ∧
    (∀ d, sys.authorizer (sys.get s) .delete (StateObject.api o).name users = .ret d → d ≠ .ok true →
      sys.delete users o s = .ret (.error .unauthorized, s)) := by
  have key : ∀ {v n} {act : S → Out (Except OrmErr Unit × S)} d,
      sys.authorizer (sys.get s) v n users = .ret d → d ≠ .ok true →
      sys.write v n users act s = .ret (.error .unauthorized, s) := by
    intro v n act d h hd
    have : sys.authorized s v n users = .ret (.error .unauthorized) := by
      simp only [Sys.authorized, he, Bool.not_true, Bool.false_eq_true, ↓reduceIte, h]
    simp [Sys.write, this]
  exact ⟨fun d h hd => key d h hd, fun d h hd => key d h hd, fun d h hd => key d h hd⟩

example : (toyApp.sys true).authorizer ((toyApp.sys true).get (fresh sampleReg)) .create
    (StateObject.api (post b!"p" b!"ann" 0)).name [b!"ann"] = .ret (.error .other) := rfl

/-- **C21** A delivery that the authorizer denies (or fails on) returns an error and changes
nothing, provided the admission handlers of the transition only read.  The error is
unauthorized, unless admission already refused. -/
theorem C21_denied_deliver_no_effect {sys : Sys S O} {router : Router O T R} (he : sys.enabled = true)
    {users : Users} {t : T} {s : S} {d : Except Err Bool}
    (ha : sys.authorizer (sys.get s) .deliver (tname t) users = .ret d) (hd : d ≠ .ok true)
    {n : Nat} {skip : Bool} (hro : skip = false → ∀ h ∈ router.admission, ReadOnly (h.2.code users t))
    {r : Except Err Unit} {s' : S} (h : deliver sys router n skip users t s = .done r s') :
    s' = s ∧ (r = .error .unauthorized ∨
      skip = false ∧ (r = .error .badRequest ∨ r = .error .transitionNotFound)) := by
  have hauth : sys.authorized s .deliver (tname t) users = .ret (.error .unauthorized) := by
    simp only [Sys.authorized, he, Bool.not_true, Bool.false_eq_true, ↓reduceIte, ha]
  cases n with
  | zero => simp [deliver] at h
  | succ n =>
    simp only [deliver] at h
    cases skip with
    | true =>
      simp only [if_true, deliverAdmitted, hauth, Res.done.injEq] at h
      exact ⟨h.2.symm, .inl h.1.symm⟩
    | false =>
      simp only [Bool.false_eq_true, if_false] at h
      have hst : ∀ {r s₁}, admissionChain router (fun hd s => (hd.code users t).run sys
          (deliver sys router n false) (Users.ofNames [hd.owner]) s) t s = .done r s₁ → s₁ = s := by
        intro r s₁ hx
        refine admissionChain_rel (W := fun a b => b = a) ⟨fun _ => rfl, fun h1 h2 => h2.trans h1⟩
          (fun hd hm {s r s'} hh => ?_) hx
        exact ReadOnly.run_eq (hro rfl _ (HandlerMap.mem_at hm)) hh
      have herr : ∀ {e s₁}, admissionChain router (fun hd s => (hd.code users t).run sys
          (deliver sys router n false) (Users.ofNames [hd.owner]) s) t s = .done (.error e) s₁ →
          e = .badRequest ∨ e = .transitionNotFound := by
        intro e s₁ hx
        simp only [admissionChain, Router.getAdmission] at hx
        split at hx
        · rename_i e' hg
          split at hg
          · cases hg
            simp only [Res.done.injEq, Except.error.injEq] at hx
            exact .inr hx.1.symm
          · cases hg
        · rename_i hs _
          clear hst
          have : ∀ (hs : List (Handler O T)) {run : Handler O T → S → Res S (Except Err Unit)} {s s₁ e},
              runAll run (fun _ => Err.badRequest) hs s = .done (.error e) s₁ → e = .badRequest := by
            intro hs
            induction hs with
            | nil => intro run s s₁ e h; simp [runAll] at h
            | cons x xs ih =>
              intro run s s₁ e h
              simp only [runAll] at h
              split at h
              · cases h
              · cases h
              · simp only [Res.done.injEq, Except.error.injEq] at h; exact h.1.symm
              · exact ih h
          exact .inl (this _ hx)
      split at h
      · cases h
      · cases h
      · rename_i e s₁ hx
        simp only [Res.done.injEq] at h
        refine ⟨h.2 ▸ hst hx, .inr ⟨rfl, ?_⟩⟩
        rcases herr hx with rfl | rfl
        · exact .inl h.1.symm
        · exact .inr h.1.symm
      · rename_i s₁ hx
        have := hst hx; subst this
        simp only [deliverAdmitted, hauth, Res.done.injEq] at h
        exact ⟨h.2.symm, .inl h.1.symm⟩

/-- The hypotheses are met: "bob" is not allowed to put posts, and admission only reads. -/
example : (toyApp.sys true).authorizer ((toyApp.sys true).get (fresh sampleReg)) .deliver
      (tname (Toy.put b!"p" b!"bob")) [b!"bob"] = .ret (.error .other) ∧
    (∀ h ∈ toyRouter.admission, ReadOnly (h.2.code [b!"bob"] (Toy.put b!"p" b!"bob"))) ∧
    deliver (toyApp.sys true) toyRouter 1 false [b!"bob"] (.put b!"p" b!"bob") (fresh sampleReg)
      = .done (.error .unauthorized) (fresh sampleReg) := by
  refine ⟨rfl, ?_, rfl⟩
  intro h hm
  simp only [toyRouter, List.mem_cons, List.not_mem_nil, or_false] at hm
  subst hm
  simp only [toyAdmit]
  rw [if_neg (by decide)]
  refine .get _ _ _ fun r => ?_
  cases r <;> exact .ret _

/-! ## C22 -/

theorem registered_eq {H : Type} (m : HandlerMap H) (name : Bytes) : m.at name = registered m name := by
  unfold HandlerMap.at registered
  induction m with
  | nil => rfl
  | cons e m ih =>
    rw [List.filterMap_cons, List.filter_cons]
    by_cases h : e.1 = name
    · rw [if_pos (by simpa using h), if_pos h, List.map_cons, ih]
    · rw [if_neg (by simpa using h), if_neg h]; exact ih

theorem runAll_inOrder {H : Type} {run : H → S → Res S (Except Err Unit)} {wrap : Err → Err}
    (l : List H) : ∀ (rest : List (Step S)) (s : S),
    (match runAll run wrap l s with
      | .done (.ok ()) s => inOrder rest s
      | r => r) = inOrder (l.map (fun h s => match run h s with
        | .done (.error e) s => .done (.error (wrap e)) s
        | r => r) ++ rest) s := by
  induction l with
  | nil => intro rest s; simp [runAll]
  | cons x xs ih =>
    intro rest s
    simp only [runAll, List.map_cons, List.cons_append, inOrder]
    cases hx : run x s with
    | panic => rfl
    | diverge => rfl
    | done r s₁ =>
      cases r with
      | error e => rfl
      | ok u => exact ih rest s₁

theorem runAll_inOrder_id {H : Type} {run : H → S → Res S (Except Err Unit)} (l : List H)
    (rest : List (Step S)) (s : S) :
    (match runAll run id l s with
      | .done (.ok ()) s => inOrder rest s
      | r => r) = inOrder (l.map run ++ rest) s := by
  rw [runAll_inOrder]
  congr 3
  funext h s
  cases run h s with
  | panic => rfl
  | diverge => rfl
  | done r s => cases r <;> rfl

theorem codeOf_eq (e : Err) : errCode e = codeOf e := by cases e <;> rfl

/-- **C22** Delivering a transition is running, in this order and stopping at the first failure:
its admission handlers (unless skipped; their errors are reported as bad requests), the
authorization check, its pre-execution handlers, its execution handler and its post-execution
handlers, each group in the order of registration and each handler as its module. -/
theorem C22_phases_in_order {sys : Sys S O} {router : Router O T R} {n : Nat} {skip : Bool}
    {users : Users} {t : T} {s : S} {hd : Handler O T}
    (hx : registered router.exec (tname t) = [hd]) :
    let call : Handler O T → Step S := fun h =>
      (h.code users t).run sys (deliver sys router n false) [h.owner]
    let authorize : Step S := fun s => match sys.authorized s .deliver (tname t) users with
      | .ret r => .done r s
      | .panic => .panic
    deliver sys router (n + 1) skip users t s = inOrder
      ((if skip then [] else (registered router.admission (tname t)).map fun h => failAs .badRequest (call h))
        ++ [authorize] ++ (registered router.pre (tname t)).map call ++ [call hd]
        ++ (registered router.post (tname t)).map call) s := by
  intro call authorize
  rw [← registered_eq] at hx
  have hge : router.getExec (tname t) = .ok hd := by
    simp only [HandlerMap.at] at hx
    simp only [Router.getExec]
    cases hf : router.exec.find? fun e => e.1 = tname t with
    | none =>
      rw [List.find?_eq_none] at hf
      have : (router.exec.filter fun e => e.1 = tname t) = [] := by
        rw [List.filter_eq_nil_iff]; exact hf
      rw [this] at hx; simp at hx
    | some e =>
      have h1 := List.mem_of_find?_eq_some hf
      have h2 := List.find?_some hf
      have h3 : e.2 ∈ (router.exec.filter fun e => e.1 = tname t).map Prod.snd :=
        List.mem_map.2 ⟨e, List.mem_filter.2 ⟨h1, h2⟩, rfl⟩
      rw [hx] at h3
      simp only [List.mem_singleton] at h3
      simp [h3]
  have hk : router.known (tname t) = true := Router.known_iff.2 ⟨hd, hge⟩
  have hadm : ∀ s, deliverAdmitted sys router call users t s = inOrder
      ([authorize] ++ (registered router.pre (tname t)).map call ++ [call hd]
        ++ (registered router.post (tname t)).map call) s := by
    intro s
    simp only [deliverAdmitted, List.cons_append, List.nil_append, inOrder, authorize]
    cases hauth : sys.authorized s .deliver (tname t) users with
    | panic => rfl
    | ret r =>
      cases r with
      | error e => rfl
      | ok u =>
        simp only [Router.getPre, hk, Bool.not_true, Bool.false_eq_true, if_false, hge, Router.getPost]
        rw [List.append_assoc, List.cons_append, List.nil_append, ← runAll_inOrder_id, ← registered_eq]
        cases runAll call id (router.pre.at (tname t)) s with
        | panic => rfl
        | diverge => rfl
        | done r s₁ =>
          cases r with
          | error e => rfl
          | ok u =>
            simp only [inOrder]
            cases call hd s₁ with
            | panic => rfl
            | diverge => rfl
            | done r s₂ =>
              cases r with
              | error e => rfl
              | ok u =>
                have h2 := runAll_inOrder_id (run := call) (router.post.at (tname t)) [] s₂
                rw [List.append_nil] at h2
                simp only [← registered_eq, ← h2]
                cases runAll call id (router.post.at (tname t)) s₂ with
                | panic => rfl
                | diverge => rfl
                | done r s₃ => cases r <;> rfl
  cases skip with
  | true =>
    simp only [deliver, if_true, List.nil_append]
    exact hadm s
  | false =>
    have h0 := runAll_inOrder (run := call) (wrap := fun _ => Err.badRequest)
      (router.admission.at (tname t)) ([authorize] ++ (registered router.pre (tname t)).map call
        ++ [call hd] ++ (registered router.post (tname t)).map call) s
    have hfa : ∀ h : Handler O T, failAs .badRequest (call h) = (fun s => match call h s with
        | .done (.error _) s => .done (.error .badRequest) s
        | r => r) := fun h => rfl
    simp only [Bool.false_eq_true, if_false, hfa]
    rw [registered_eq] at h0
    simp only [List.append_assoc] at h0 ⊢
    rw [← h0]
    simp only [deliver, Bool.false_eq_true, if_false, admissionChain, Router.getAdmission, hk,
      Bool.not_true]
    rw [← registered_eq]
    show (match runAll call (fun _ => Err.badRequest) (router.admission.at (tname t)) s with
      | .panic => Res.panic
      | .diverge => Res.diverge
      | .done (.error e) s => Res.done (Except.error e) s
      | .done (.ok ()) s => deliverAdmitted sys router call users t s) = _
    cases runAll call (fun _ => Err.badRequest) (router.admission.at (tname t)) s with
    | panic => rfl
    | diverge => rfl
    | done r s₁ =>
      cases r with
      | error e => rfl
      | ok u =>
        simp only [hadm s₁, List.append_assoc]

example : registered toyRouter.exec (tname (Toy.put b!"p" b!"ann")) = [⟨b!"blog", toyPut⟩] := rfl

/-! ## C24 -/

/-- **C24 fails**: creating an object that exists does not return an error to the caller: the
error conversion panics.  This holds for every allowed creation of every existing object. -/
theorem C24_fails {sys : Sys S O} {users : Users} {o : O} {s s' : S}
    (ha : sys.authorized s .create (StateObject.api o).name users = .ret (.ok ()))
    (hc : sys.ops.create s o = .ret (.error .alreadyExists, s')) :
    sys.create users o s = .panic := by
  simp [Sys.create, Sys.write, ha, hc, convertStoreError]

/-- The hypotheses are met on the ORM store: a post put a second time (past admission, as
transactions are delivered) crashes the application. -/
theorem C24_fails_example : ∃ s₁ : Store Msg,
    deliver (toyApp.sys true) toyRouter 1 true [b!"ann"] (.put b!"p" b!"ann") (fresh sampleReg)
      = .done (.ok ()) s₁ ∧
    (toyApp.sys true).authorized s₁ .create postApi.name [b!"blog"] = .ret (.ok ()) ∧
    (ormOps Msg).create s₁ (post b!"p" b!"bob" 1) = .ret (.error .alreadyExists, s₁) ∧
    deliver (toyApp.sys true) toyRouter 1 true [b!"ann"] (.put b!"p" b!"ann") s₁ = .panic :=
  ⟨_, rfl, rfl, rfl, rfl⟩

/-- **C24, what holds**: a creation that returns success put the object where there was none;
otherwise nothing was written. -/
theorem C24_create_never_overwrites_partial {reg : Registry} {auth : Authorizer O} {en : Bool}
    {users : Users} {o : O} {m m' : Contents O} {r : Except Err Unit}
    (h : Sys.create ⟨mapOps reg, auth, en⟩ users o m = .ret (r, m')) :
    (r = .ok () ∧ ∃ ty pk, keyOf reg o = some (ty, pk) ∧ m ty pk = none ∧ m' = m.put ty pk (some o)) ∨
    (m' = m ∧ r = .error .unauthorized) := by
  simp only [Sys.create, Sys.write] at h
  have hun : ∀ {e}, Sys.authorized ⟨mapOps reg, auth, en⟩ m .create (StateObject.api o).name users
      = .ret (.error e) → e = .unauthorized := by
    intro e hx
    simp only [Sys.authorized] at hx
    split at hx
    · cases hx
    · split at hx <;> simp_all
  split at h
  · cases h
  · rename_i e hx
    simp only [Out.ret.injEq, Prod.mk.injEq] at h
    exact .inr ⟨h.2.symm, by rw [← h.1, hun hx]⟩
  · cases hx : mapExec reg m (.create o) with
    | panic => simp [mapOps, hx] at h
    | ret x =>
      simp only [mapOps, hx] at h
      rcases mapExec_panic hx with ⟨sch, pk, h1, h2, _, rfl⟩ | ⟨_, rfl⟩
      · simp only [Op.obj, apply] at h h1 h2
        by_cases hz : pk = []
        · simp [hz, convertStoreError] at h
        · simp only [hz, if_false] at h
          cases h3 : m (StateObject.api o).name pk with
          | some o' => simp [h3, convertStoreError] at h
          | none =>
            simp only [h3, Option.isSome_none, Bool.false_eq_true, if_false, convertStoreError,
              Out.ret.injEq, Prod.mk.injEq] at h
            exact .inl ⟨h.1.symm, _, pk, by simp [keyOf, h1, h2], h3, h.2.symm⟩
      · simp [convertStoreError] at h

/-! ## C25 -/

/-- **C25** Checking a transaction does not change the state, provided the transaction admission
handlers and the transition admission handlers only read. -/
theorem C25_checkTx_no_effect {c : Config S O T R B}
    (h1 : ∀ h ∈ c.router.authAdmission, ∀ tx, ReadOnly (h.code tx))
    (h2 : ∀ h ∈ c.router.admission, ∀ users t, ReadOnly (h.2.code users t))
    {n : Nat} {tx : Bytes} {a a' : App S} {code : Nat} (h : c.checkTx n tx a = .done code a') :
    a' = a := by
  have hW : Preorder' fun a b : S => b = a := ⟨fun _ => rfl, fun h1 h2 => h2.trans h1⟩
  have k1 : ∀ {x s r s'}, txChain (c.sys a.enabled) c.router n c.router.authAdmission x s = .done r s' →
      s' = s := by
    intro x s r s' hx
    refine runAll_rel hW (fun hd hm {s r s'} hh => ?_) hx
    exact ReadOnly.run_eq (h1 _ hm _) hh
  simp only [Config.checkTx] at h
  split at h
  · cases h
  split at h
  · cases h
  · simp only [Res.done.injEq] at h; exact h.2.symm
  split at h
  · cases h
  · cases h
  · rename_i e s₁ hx
    simp only [Res.done.injEq] at h; rw [← h.2, k1 hx]
  rename_i s₁ hx
  have e1 := k1 hx
  have k2 : ∀ {l : List T} {u : Users} {s r s'}, runAll (fun t s => admissionChain c.router
      (fun hd s => c.runAs n a.enabled hd.owner (hd.code u t) s) t s) id l s = .done r s' → s' = s := by
    intro l u s r s' hh
    refine runAll_rel hW (fun t _ {s r s'} hh => ?_) hh
    refine admissionChain_rel hW (fun hd hm {s r s'} hh => ?_) hh
    exact ReadOnly.run_eq (h2 _ (HandlerMap.mem_at hm) _ _) hh
  split at h
  · cases h
  · cases h
  · rename_i e s₂ hx2
    simp only [Res.done.injEq] at h; rw [← h.2, k2 hx2, e1]
  · rename_i s₂ hx2
    simp only [Res.done.injEq] at h; rw [← h.2, k2 hx2, e1]

/-- The hypotheses are met by the toy application, in which checks succeed and fail. -/
example : (∀ h ∈ toyRouter.authAdmission, ∀ tx, ReadOnly (h.code tx)) ∧
    (∀ h ∈ toyRouter.admission, ∀ users t, ReadOnly (h.2.code users t)) ∧
    (toyApp.checkTx 1 b!"hello" ⟨fresh sampleReg, true, true⟩
      = .done 0 ⟨fresh sampleReg, true, true⟩) ∧
    (toyApp.checkTx 1 b!"evil" ⟨fresh sampleReg, true, true⟩
      = .done 400 ⟨fresh sampleReg, true, true⟩) := by
  refine ⟨?_, ?_, rfl, rfl⟩
  · intro h hm tx
    simp only [toyRouter, List.mem_cons, List.not_mem_nil, or_false] at hm
    subst hm
    dsimp only
    split <;> exact .ret _
  · intro h hm users t
    simp only [toyRouter, List.mem_cons, List.not_mem_nil, or_false] at hm
    subst hm
    dsimp only
    cases t with
    | put id creator =>
      simp only [toyAdmit]
      split
      · exact .ret _
      · refine .get _ _ _ fun r => ?_
        cases r <;> exact .ret _
    | sys n => exact .crash
    | unknown => exact .crash

/-! ## C26 -/

/-- **C26 fails**: a transaction that `CheckTx` rejects because its transition fails admission is
executed by `DeliverTx` in the same state. -/
theorem C26_fails : ∃ a' : App (Store Msg),
    toyApp.checkTx 1 b!"evil" ⟨fresh sampleReg, true, true⟩
      = .done 400 ⟨fresh sampleReg, true, true⟩ ∧
    admissionChain toyRouter (fun h s => toyApp.runAs 1 true h.owner
        (h.code [b!"ann"] (.put b!"evil" b!"eve")) s) (.put b!"evil" b!"eve") (fresh sampleReg)
      = .done (.error .badRequest) (fresh sampleReg) ∧
    toyApp.deliverTx 1 b!"evil" ⟨fresh sampleReg, true, true⟩ = .done 0 a' ∧
    a'.store.get postApi.name b!"evil" = .ok (post b!"evil" b!"eve" 0) :=
  ⟨_, rfl, rfl, rfl, rfl⟩

/-- **C26, what holds**: transitions delivered by modules, and the system transitions, go through
admission: if an admission handler of the transition refuses, nothing after it runs. -/
theorem C26_nested_admission_partial {sys : Sys S O} {router : Router O T R} {n : Nat}
    {users : Users} {t : T} {s s' : S} {e : Err}
    (h : admissionChain router (fun h s => (h.code users t).run sys (deliver sys router n false)
      [h.owner] s) t s = .done (.error e) s') :
    deliver sys router (n + 1) false users t s = .done (.error e) s' := by
  simp only [deliver, Bool.false_eq_true, if_false, Users.ofNames_single, h]

/-! ## C27 -/

/-- **C27 fails**: `DeliverTx` of a transaction whose second transition fails reports an error,
but the post created by the first one stays. -/
theorem C27_fails : ∃ a' : App (Store Msg),
    toyApp.deliverTx 1 b!"uh" ⟨fresh sampleReg, true, true⟩ = .done 1 a' ∧
    (fresh sampleReg : Store Msg).get postApi.name b!"uh" = .error .notFound ∧
    a'.store.get postApi.name b!"uh" = .ok (post b!"uh" b!"ann" 0) :=
  ⟨_, rfl, rfl, rfl⟩

/-- **C27, what holds**: a transaction that does not decode, or that a transaction admission
handler refuses, leaves no trace (if these handlers only read).  Missing: failures of later
phases, whose writes stay. -/
theorem C27_rejected_no_trace_partial {c : Config S O T R B}
    {decode : Bytes → Out (Except Err (Tx T R))} (hd : c.decode = some decode)
    (hro : ∀ h ∈ c.router.authAdmission, ∀ tx, ReadOnly (h.code tx)) {n : Nat} {bytes : Bytes}
    {a a' : App S} {code : Nat} (h : c.deliverTx n bytes a = .done code a')
    (hrej : (∃ e, decode bytes = .ret (.error e)) ∨ ∃ tx e s', decode bytes = .ret (.ok tx) ∧
      txChain (c.sys a.enabled) c.router n c.router.authAdmission tx a.store = .done (.error e) s') :
    a' = a ∧ code ≠ 0 := by
  rcases hrej with ⟨e, he⟩ | ⟨tx, e, s', he, hx⟩
  · simp only [Config.deliverTx, hd, he, Res.done.injEq] at h
    exact ⟨h.2.symm, by rw [← h.1]; cases e <;> decide⟩
  · simp only [Config.deliverTx, hd, he, hx, Res.done.injEq] at h
    have : s' = a.store := by
      refine runAll_rel (W := fun a b => b = a) ⟨fun _ => rfl, fun h1 h2 => h2.trans h1⟩
        (fun hd hm {s r s'} hh => ?_) hx
      exact ReadOnly.run_eq (hro _ hm _) hh
    subst this
    exact ⟨h.2.symm, by rw [← h.1]; cases e <;> decide⟩

/-! ## C28 -/

/-- **C28** `DeliverTx` of a transaction that decodes runs its phases in order: the admission and
the post-authentication handlers (errors reported as bad requests), then the transitions,
delivered as the users of the transaction and without admission.  The response code is 0 if all
succeed and otherwise the code of the first error. -/
theorem C28_deliverTx_phases {c : Config S O T R B} {decode : Bytes → Out (Except Err (Tx T R))}
    (hd : c.decode = some decode) {bytes : Bytes} {tx : Tx T R} (ht : decode bytes = .ret (.ok tx))
    {n : Nat} {a : App S} :
    let call : TxHandler O T R → Step S := fun h =>
      (h.code tx).run (c.sys a.enabled) (deliver (c.sys a.enabled) c.router n false) [h.owner]
    c.deliverTx n bytes a = respond a (inOrder
      (c.router.authAdmission.map (fun h => failAs .badRequest (call h)) ++
       c.router.postAuth.map (fun h => failAs .badRequest (call h)) ++
       tx.transitions.map fun t => deliver (c.sys a.enabled) c.router n true tx.users t) a.store) := by
  intro call
  have e1 : ∀ (l : List (TxHandler O T R)) rest s,
      (match txChain (c.sys a.enabled) c.router n l tx s with
        | .done (.ok ()) s => inOrder rest s
        | r => r) = inOrder (l.map (fun h => failAs .badRequest (call h)) ++ rest) s :=
    fun l rest s => runAll_inOrder (run := call) (wrap := fun _ => .badRequest) l rest s
  have e2 := fun s => runAll_inOrder_id
    (run := fun t s => c.deliver n a.enabled true tx.users t s) tx.transitions ([] : List (Step S)) s
  rw [List.append_assoc, ← e1]
  simp only [Config.deliverTx, hd, ht]
  cases txChain (c.sys a.enabled) c.router n c.router.authAdmission tx a.store with
  | panic => rfl
  | diverge => rfl
  | done r s₁ =>
    cases r with
    | error e => simp [respond, codeOf_eq]
    | ok u =>
      simp only
      rw [← e1]
      cases txChain (c.sys a.enabled) c.router n c.router.postAuth tx s₁ with
      | panic => rfl
      | diverge => rfl
      | done r s₂ =>
        cases r with
        | error e => simp [respond, codeOf_eq]
        | ok u =>
          simp only
          have := e2 s₂
          rw [List.append_nil] at this
          change _ = respond a (inOrder (tx.transitions.map fun t s =>
            c.deliver n a.enabled true tx.users t s) s₂)
          rw [← this]
          cases runAll (fun t s => c.deliver n a.enabled true tx.users t s) id tx.transitions s₂ with
          | panic => rfl
          | diverge => rfl
          | done r s₃ =>
            cases r with
            | error e => simp [respond, codeOf_eq]
            | ok u => simp [respond, inOrder]

/-- **C28** `CheckTx` of a transaction that decodes runs its phases in order: the admission
handlers of the transaction, then for each transition its admission handlers (all errors
reported as bad requests); a transition without an execution handler fails. -/
theorem C28_checkTx_phases {c : Config S O T R B} {decode : Bytes → Out (Except Err (Tx T R))}
    (hd : c.decode = some decode) {bytes : Bytes} {tx : Tx T R} (ht : decode bytes = .ret (.ok tx))
    {n : Nat} {a : App S} :
    let dlv := deliver (c.sys a.enabled) c.router n false
    let checks : T → List (Step S) := fun t =>
      if ∃ e ∈ c.router.exec, e.1 = tname t then
        (registered c.router.admission (tname t)).map fun h =>
          failAs .badRequest ((h.code tx.users t).run (c.sys a.enabled) dlv [h.owner])
      else [fun s => .done (.error .transitionNotFound) s]
    c.checkTx n bytes a = respond a (inOrder
      (c.router.authAdmission.map (fun h =>
          failAs .badRequest ((h.code tx).run (c.sys a.enabled) dlv [h.owner])) ++
       tx.transitions.flatMap checks) a.store) := by
  intro dlv checks
  have e1 : ∀ (l : List (TxHandler O T R)) rest s,
      (match txChain (c.sys a.enabled) c.router n l tx s with
        | .done (.ok ()) s => inOrder rest s
        | r => r) = inOrder (l.map (fun h => failAs .badRequest
          ((h.code tx).run (c.sys a.enabled) dlv [h.owner])) ++ rest) s :=
    fun l rest s => runAll_inOrder (wrap := fun _ => .badRequest)
      (run := fun (h : TxHandler O T R) (s : S) =>
        (h.code tx).run (c.sys a.enabled) dlv [h.owner] s) l rest s
  have e2 : ∀ (l : List T) s, runAll (fun t s => admissionChain c.router (fun h s =>
      c.runAs n a.enabled h.owner (h.code tx.users t) s) t s) id l s = inOrder (l.flatMap checks) s := by
    intro l
    induction l with
    | nil => intro s; rfl
    | cons t l ih =>
      intro s
      rw [List.flatMap_cons]
      simp only [runAll]
      by_cases hk : ∃ e ∈ c.router.exec, e.1 = tname t
      · have hkn : c.router.known (tname t) = true := by
          simp only [Router.known, List.find?_isSome, decide_eq_true_eq]; exact hk
        have := runAll_inOrder (wrap := fun _ => Err.badRequest)
          (run := fun h => (h.code tx.users t).run (c.sys a.enabled) dlv [h.owner])
          (registered c.router.admission (tname t)) (l.flatMap checks) s
        have ha : checks t = (registered c.router.admission (tname t)).map fun h =>
          failAs .badRequest ((h.code tx.users t).run (c.sys a.enabled) dlv [h.owner]) := if_pos hk
        rw [ha]
        refine Eq.trans ?_ this
        have hch : admissionChain c.router (fun h s =>
            c.runAs n a.enabled h.owner (h.code tx.users t) s) t s = runAll (fun (h : Handler O T) s =>
            (h.code tx.users t).run (c.sys a.enabled) dlv [h.owner] s) (fun _ => Err.badRequest)
            (registered c.router.admission (tname t)) s := by
          simp only [admissionChain, Router.getAdmission, hkn, Bool.not_true, Bool.false_eq_true,
            if_false, registered_eq]
          rfl
        rw [hch]
        cases runAll (fun (h : Handler O T) s => (h.code tx.users t).run (c.sys a.enabled) dlv
          [h.owner] s) (fun _ => Err.badRequest) (registered c.router.admission (tname t)) s with
        | panic => rfl
        | diverge => rfl
        | done r s₁ =>
          cases r with
          | error e => rfl
          | ok u => exact ih s₁
      · have hkn : c.router.known (tname t) = false := by
          rw [← Bool.not_eq_true]
          simp only [Router.known, List.find?_isSome, decide_eq_true_eq]; exact hk
        have ha : checks t = [fun s => .done (.error .transitionNotFound) s] := if_neg hk
        rw [ha]
        simp [admissionChain, Router.getAdmission, hkn, inOrder]
  rw [← e1]
  simp only [Config.checkTx, hd, ht, e2]
  cases txChain (c.sys a.enabled) c.router n c.router.authAdmission tx a.store with
  | panic => rfl
  | diverge => rfl
  | done r s₁ =>
    cases r with
    | error e => simp [respond, codeOf_eq]
    | ok u =>
      simp only
      cases inOrder (tx.transitions.flatMap checks) s₁ with
      | panic => rfl
      | diverge => rfl
      | done r s₂ =>
        cases r with
        | error e => simp [respond, codeOf_eq]
        | ok u => simp [respond]

/-- **C28** A transaction that does not decode is answered with the code of the error, and the
state is unchanged. -/
theorem C28_undecodable {c : Config S O T R B} {decode : Bytes → Out (Except Err (Tx T R))}
    (hd : c.decode = some decode) {bytes : Bytes} {e : Err} (ht : decode bytes = .ret (.error e))
    {n : Nat} {a : App S} :
    c.deliverTx n bytes a = .done (codeOf e) a ∧ c.checkTx n bytes a = .done (codeOf e) a := by
  simp [Config.deliverTx, Config.checkTx, hd, ht, codeOf_eq]

/-- **C28** No error has code 0. -/
theorem C28_error_code_nonzero (e : Err) : codeOf e ≠ 0 := by cases e <;> decide

/-- A transaction is accepted, one is rejected, one does not decode. -/
example : (∃ a', toyApp.deliverTx 1 b!"hello" ⟨fresh sampleReg, true, true⟩ = .done 0 a') ∧
    (toyApp.deliverTx 1 [] ⟨fresh sampleReg, true, true⟩ = .done 1 ⟨fresh sampleReg, true, true⟩) ∧
    (toyApp.checkTx 1 b!"evil" ⟨fresh sampleReg, true, true⟩
      = .done 400 ⟨fresh sampleReg, true, true⟩) := ⟨⟨_, rfl⟩, rfl, rfl⟩

/-! ## C29 -/

theorem initialized_step {c : Config S O T R B} {a a' : App S} {n : Nat} {call : Call B} {r : Resp O}
    (hi : a.initialized = true) (h : c.step n a call = .done r a') : a'.initialized = true := by
  by_cases hc : ∃ id st, call = .initChain id st
  · obtain ⟨id, st, rfl⟩ := hc
    simp only [Config.step, Config.initChain] at h
    split at h
    · cases h
    · cases h
    · cases h
    · rename_i a₁ hx
      have : a₁.initialized = true := by
        split at hx
        · simp [Config.initGenesis, hi] at hx
        · simp only [Config.importState] at hx
          split at hx
          · cases hx
          · split at hx
            · cases hx
            · cases hx
            · simp only [Res.done.injEq] at hx
              rw [← hx.2]; exact hi
      split at h
      · cases h
      · cases h
      · cases h
      · simp only [Config.mapRes, Res.done.injEq] at h
        rw [← h.2]; exact this
  · have hW : Preorder' fun _ _ : S => True := ⟨fun _ => trivial, fun _ _ => trivial⟩
    have := rel_of_step hW (fun m _ => ⟨fun _ => trivial, fun _ => trivial, fun _ => trivial⟩)
      (fun id st hh => hc ⟨id, st, hh⟩) h
    rw [this.2.2]; exact hi

/-- **C29** After a successful default genesis, and any history of requests after it, a second
default genesis returns an error and changes nothing. -/
theorem C29_genesis_once {c : Config S O T R B} {n k : Nat} {a a₁ a₂ : App S} {calls : List (Call B)}
    {rs : List (Resp O)} (h : c.initGenesis n a = .done (.ok ()) a₁)
    (hs : c.steps k a₁ calls = .done rs a₂) (m : Nat) :
    ∃ e, c.initGenesis m a₂ = .done (.error e) a₂ := by
  have hi : a₁.initialized = true := by
    simp only [Config.initGenesis] at h
    split at h
    · cases h
    split at h
    · cases h
    · cases h
    · cases h
    split at h
    · cases h
    · cases h
    · cases h
    · simp only [Res.done.injEq] at h; rw [← h.2]
  have : a₂.initialized = true := by
    clear h
    induction calls generalizing a₁ rs with
    | nil => simp only [Config.steps, Res.done.injEq] at hs; rw [← hs.2]; exact hi
    | cons x xs ih =>
      simp only [Config.steps] at hs
      split at hs
      · cases hs
      · cases hs
      · rename_i r a₃ hx
        split at hs
        · cases hs
        · cases hs
        · rename_i rs' a₄ hx2
          simp only [Res.done.injEq] at hs
          exact ih (hs.2 ▸ hx2) (initialized_step hi hx)
  exact ⟨.other, by simp [Config.initGenesis, this]⟩

example : ∃ a₁ a₂ rs, toyApp.initGenesis 1 ⟨fresh sampleReg, false, false⟩ = .done (.ok ()) a₁ ∧
    toyApp.steps 1 a₁ [.deliverTx b!"x", .commit] = .done rs a₂ := ⟨_, _, _, rfl, rfl⟩

/-! ## C61 -/

theorem steps_on_a_map {c : Config (Store O) O T R B} (ho : c.ops = ormOps O)
    {reg : Registry} (hr : RegOk reg) (n : Nat) (calls : List (Call B)) :
    Res.Rel (AppSim (ViewRel reg)) (c.steps n ⟨fresh reg, false, false⟩ calls)
      ((onStore c (mapOps reg)).steps n ⟨Contents.empty, false, false⟩ calls) := by
  have hsim : StoreSim c.ops (mapOps reg) (ViewRel reg) := by rw [ho]; exact storeSim_orm reg
  exact Config.steps_same (c := c) hsim calls ⟨⟨Inv.init hr, rfl, view_init _⟩, rfl, rfl⟩

/-- **C61** Every history of requests that the application serves on the object store is served
in the same way, with the same responses, by the application running on a plain map from (type,
primary key) to objects, and ends with what clients see of the store being that map. -/
theorem C61_application_on_a_map {c : Config (Store O) O T R B} (ho : c.ops = ormOps O)
    {reg : Registry} (hr : RegOk reg) {n : Nat} {calls : List (Call B)} {rs : List (Resp O)}
    {a' : App (Store O)} (h : c.steps n ⟨fresh reg, false, false⟩ calls = .done rs a') :
    ∃ m', (onStore c (mapOps reg)).steps n ⟨Contents.empty, false, false⟩ calls
        = .done rs ⟨m', a'.enabled, a'.initialized⟩ ∧ view a'.store = m' := by
  rcases (steps_on_a_map ho hr n calls).cases with ⟨r, s, b, h1, h2, hq⟩ | ⟨h1, _⟩ | ⟨h1, _⟩
  · rw [h] at h1
    cases h1
    refine ⟨b.store, ?_, hq.store.view⟩
    rw [h2]
    cases b
    simp only [hq.enabled, hq.initialized]
  · rw [h] at h1; cases h1
  · rw [h] at h1; cases h1

/-- **C61** Conversely, what the application on a map serves is served on the object store. -/
theorem C61_map_application_on_store {c : Config (Store O) O T R B} (ho : c.ops = ormOps O)
    {reg : Registry} (hr : RegOk reg) {n : Nat} {calls : List (Call B)} {rs : List (Resp O)}
    {b : App (Contents O)}
    (h : (onStore c (mapOps reg)).steps n ⟨Contents.empty, false, false⟩ calls = .done rs b) :
    ∃ s, c.steps n ⟨fresh reg, false, false⟩ calls = .done rs ⟨s, b.enabled, b.initialized⟩ ∧
      view s = b.store := by
  rcases (steps_on_a_map ho hr n calls).cases with ⟨r, s, b, h1, h2, hq⟩ | ⟨_, h1⟩ | ⟨_, h1⟩
  · rw [h] at h2
    cases h2
    refine ⟨s.store, ?_, hq.store.view⟩
    rw [h1]
    cases s
    simp only [← hq.enabled, ← hq.initialized]
  · rw [h] at h1; cases h1
  · rw [h] at h1; cases h1

/-- **C61** The application crashes on the object store exactly when it crashes on the map. -/
theorem C61_crashes_agree {c : Config (Store O) O T R B} (ho : c.ops = ormOps O)
    {reg : Registry} (hr : RegOk reg) {n : Nat} {calls : List (Call B)} :
    c.steps n ⟨fresh reg, false, false⟩ calls = .panic ↔
      (onStore c (mapOps reg)).steps n ⟨Contents.empty, false, false⟩ calls = .panic := by
  rcases (steps_on_a_map ho hr n calls).cases with ⟨r, s, b, h1, h2, _⟩ | ⟨h1, h2⟩ | ⟨h1, h2⟩ <;>
    simp [h1, h2]

example : ∃ rs a', toyApp.steps 1 ⟨fresh sampleReg, false, false⟩
    [.initChain b!"chain" [], .checkTx b!"hello", .deliverTx b!"hello", .commit] = .done rs a' ∧
    rs = [.none, .code 0, .code 0, .none] := ⟨_, _, rfl, rfl⟩

/-- **C61** The bound on nested deliveries plays no role: a history that is served (or crashes)
under some bound is served in the same way under every larger bound. -/
theorem C61_bound_irrelevant {c : Config S O T R B} {n m : Nat} (h : n ≤ m) {a : App S}
    {calls : List (Call B)} (hd : c.steps n a calls ≠ .diverge) :
    c.steps m a calls = c.steps n a calls := by
  rcases Config.steps_le (c := c) h calls a with h | h
  · exact absurd h hd
  · exact h.symm

/-! ## C62 -/

/-- **C62 fails**: a client listing that matches no object is not reported to the caller: the
error conversion panics. -/
theorem C62_fails : (toyApp.sys true).list (fresh sampleReg) postApi.name
    { matchString := [(b!"creator", b!"ann")] } = .panic := rfl

theorem prefixesToScan_ne_notFound {sch : Schema} {opt : ListOptions} :
    prefixesToScan sch opt ≠ .ret (.error .notFound) := by
  have h1 : ∀ l, prefixesInterface sch l ≠ .ret (.error .notFound) := by
    intro l
    induction l with
    | nil => simp [prefixesInterface]
    | cons x l ih =>
      intro h
      simp only [prefixesInterface] at h
      repeat' split at h
      all_goals first | (cases h; done) | simp_all
  have h2 : ∀ l, prefixesString sch l ≠ .ret (.error .notFound) := by
    intro l
    induction l with
    | nil => simp [prefixesString]
    | cons x l ih =>
      intro h
      simp only [prefixesString] at h
      repeat' split at h
      all_goals first | (cases h; done) | simp_all
  intro h
  simp only [prefixesToScan] at h
  repeat' split at h
  · cases h
  · exact h2 _ h
  · exact h1 _ h

/-- **C62, what holds**: a client listing either panics or returns the objects the store yields,
at least one. -/
theorem C62_listing_partial {reg : Registry} {auth : Authorizer O} {en : Bool} {m : Contents O}
    {ty : Bytes} {opt : ListOptions} {r : Except Err (List (Except OrmErr O))}
    (h : Sys.list ⟨mapOps reg, auth, en⟩ m ty opt = .ret r) :
    ∃ l, r = .ok l ∧ l ≠ [] ∧ (mapOps reg).list m ty opt = .ret (.ok l) := by
  simp only [Sys.list] at h
  split at h
  · cases h
  · rename_i q hq
    cases q with
    | error e =>
      have : e ≠ .notFound := by
        rintro rfl
        simp only [mapOps, mapListKeys] at hq
        split at hq
        · cases hq
        · rename_i hk
          simp only [Out.ret.injEq, Except.error.injEq] at hq
          subst hq
          split at hk
          · cases hk
          · split at hk
            · cases hk
            · rename_i hp
              simp only [Out.ret.injEq, Except.error.injEq] at hk
              subst hk
              exact prefixesToScan_ne_notFound hp
            · cases hk
            · split at hk
              · split at hk <;> cases hk
              · cases hk
        · cases hq
      cases e <;> simp [convertStoreError] at h this
    | ok l =>
      simp only [convertStoreError, Out.ret.injEq] at h
      refine ⟨l, h.symm, ?_, hq⟩
      rintro rfl
      simp only [mapOps] at hq
      split at hq
      · cases hq
      · cases hq
      · rename_i ks hk
        simp only [Out.ret.injEq, Except.ok.injEq, List.map_eq_nil_iff] at hq
        subst hq
        simp only [mapListKeys] at hk
        split at hk
        · cases hk
        · split at hk
          · cases hk
          · cases hk
          · cases hk
          · split at hk
            · split at hk
              · cases hk
              · rename_i hne; simp only [Out.ret.injEq, Except.ok.injEq] at hk; exact hne hk
            · cases hk

/-! ## C64 -/

/-- **C64 fails**: an application built without a transaction decoder does not reject
transactions: it crashes on every one of them. -/
theorem C64_fails {c : Config S O T R B} (h : c.decode = none) (n : Nat) (tx : Bytes) (a : App S) :
    c.checkTx n tx a = .panic ∧ c.deliverTx n tx a = .panic := by
  simp [Config.checkTx, Config.deliverTx, h]

example : ({ toyApp with decode := none } : Config (Store Msg) Msg Toy Unit Unit).decode = none := rfl

end Verif.Props
