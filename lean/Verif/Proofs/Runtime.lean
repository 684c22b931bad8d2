import Verif.Spec.Runtime
/-! Lemmas about the runtime model. -/

set_option linter.unusedSectionVars false

namespace Verif
open Spec

variable {S O T R B : Type}

theorem Users.ofNames_single (n : Bytes) : Users.ofNames [n] = [n] := rfl

/-- A reflexive and transitive relation between states. -/
structure Preorder' (W : S → S → Prop) : Prop where
  refl : ∀ s, W s s
  trans : ∀ {a b c}, W a b → W b c → W a c

theorem runAll_rel {H : Type} {W : S → S → Prop} (hW : Preorder' W)
    {run : H → S → Res S (Except Err Unit)} {wrap : Err → Err} :
    ∀ {hs : List H}, (∀ h ∈ hs, ∀ {s r s'}, run h s = .done r s' → W s s') →
      ∀ {s r s'}, runAll run wrap hs s = .done r s' → W s s'
  | [], _, s, r, s', h => by
    simp only [runAll, Res.done.injEq] at h
    exact h.2 ▸ hW.refl s
  | x :: xs, hr, s, r, s', h => by
    simp only [runAll] at h
    split at h
    · cases h
    · cases h
    · rename_i e s₁ he
      simp only [Res.done.injEq] at h
      exact h.2 ▸ hr x (by simp) he
    · rename_i s₁ he
      exact hW.trans (hr x (by simp) he)
        (runAll_rel hW (fun y hy => hr y (by simp [hy])) h)

section
variable [StateObject O]

/-- The writes a client makes stay within `W`. -/
structure ClientRel (sys : Sys S O) (me : Users) (W : S → S → Prop) : Prop where
  create : ∀ {o s r s'}, sys.create me o s = .ret (r, s') → W s s'
  update : ∀ {o s r s'}, sys.update me o s = .ret (r, s') → W s s'
  delete : ∀ {o s r s'}, sys.delete me o s = .ret (r, s') → W s s'

theorem Prog.run_rel {α : Type} {W : S → S → Prop} (hW : Preorder' W) {sys : Sys S O} {me : Users}
    (hc : ClientRel sys me W) {dlv : Users → T → S → Res S (Except Err Unit)}
    (hd : ∀ {u t s r s'}, dlv u t s = .done r s' → W s s') (p : Prog O T α) :
    ∀ {s : S} {a : α} {s' : S}, p.run sys dlv me s = .done a s' → W s s' := by
  induction p with
  | ret a => intro s b s' h; simp only [Prog.run, Res.done.injEq] at h; exact h.2 ▸ hW.refl s
  | crash => intro s b s' h; simp [Prog.run] at h
  | get ty id k ih =>
    intro s b s' h; simp only [Prog.run] at h; split at h
    · cases h
    · exact ih _ h
  | list ty opt k ih =>
    intro s b s' h; simp only [Prog.run] at h; split at h
    · cases h
    · exact ih _ h
  | create o k ih =>
    intro s b s' h; simp only [Prog.run] at h; split at h
    · cases h
    · rename_i r s₁ he; exact hW.trans (hc.create he) (ih _ h)
  | update o k ih =>
    intro s b s' h; simp only [Prog.run] at h; split at h
    · cases h
    · rename_i r s₁ he; exact hW.trans (hc.update he) (ih _ h)
  | delete o k ih =>
    intro s b s' h; simp only [Prog.run] at h; split at h
    · cases h
    · rename_i r s₁ he; exact hW.trans (hc.delete he) (ih _ h)
  | deliver t imp k ih =>
    intro s b s' h; simp only [Prog.run] at h; split at h
    · cases h
    · cases h
    · rename_i r s₁ he; exact hW.trans (hd he) (ih _ h)

theorem ReadOnly.run_eq {α : Type} {sys : Sys S O} {me : Users}
    {dlv : Users → T → S → Res S (Except Err Unit)} {p : Prog O T α} (hp : ReadOnly p) :
    ∀ {s : S} {a : α} {s' : S}, p.run sys dlv me s = .done a s' → s' = s := by
  induction hp with
  | ret a => intro s b s' h; simp only [Prog.run, Res.done.injEq] at h; exact h.2.symm
  | crash => intro s b s' h; simp [Prog.run] at h
  | get ty id k _ ih =>
    intro s b s' h; simp only [Prog.run] at h; split at h
    · cases h
    · exact ih _ h
  | list ty opt k _ ih =>
    intro s b s' h; simp only [Prog.run] at h; split at h
    · cases h
    · exact ih _ h

/-! ## Handlers of a router -/

theorem HandlerMap.mem_at {H : Type} {m : HandlerMap H} {n : Bytes} {h : H} (hm : h ∈ m.at n) :
    (n, h) ∈ m := by
  simp only [HandlerMap.at, List.mem_map, List.mem_filter, decide_eq_true_eq] at hm
  obtain ⟨⟨a, b⟩, ⟨h1, h2⟩, h3⟩ := hm
  simp only at h2 h3
  subst h2; subst h3; exact h1

theorem Router.getExec_mem {r : Router O T R} {n : Bytes} {h : Handler O T}
    (he : r.getExec n = .ok h) : (n, h) ∈ r.exec := by
  simp only [Router.getExec] at he
  split at he
  · cases he
  · rename_i e hf
    simp only [Except.ok.injEq] at he
    have h1 := List.mem_of_find?_eq_some hf
    have h2 := List.find?_some hf
    simp only [decide_eq_true_eq] at h2
    subst h2; subst he; exact h1

theorem Router.known_iff {r : Router O T R} {n : Bytes} :
    r.known n = true ↔ ∃ h, r.getExec n = .ok h := by
  simp only [Router.known, Router.getExec]
  cases hf : r.exec.find? fun e => e.1 = n with
  | none => simp
  | some e => simp

theorem Router.getExec_error {r : Router O T R} {n : Bytes} (h : r.known n = false) :
    r.getExec n = .error .transitionNotFound := by
  simp only [Router.known, Option.isSome_eq_false_iff, Option.isNone_iff_eq_none] at h
  simp only [Router.getExec, h]

variable [StateTransition T]

theorem admissionChain_rel {W : S → S → Prop} (hW : Preorder' W) {router : Router O T R}
    {run : Handler O T → S → Res S (Except Err Unit)} {t : T}
    (hr : ∀ h ∈ router.admission.at (tname t), ∀ {s r s'}, run h s = .done r s' → W s s')
    {s : S} {r : Except Err Unit} {s' : S}
    (h : admissionChain router run t s = .done r s') : W s s' := by
  simp only [admissionChain] at h
  split at h
  · simp only [Res.done.injEq] at h; exact h.2 ▸ hW.refl s
  · rename_i hs he
    simp only [Router.getAdmission] at he
    split at he
    · cases he
    · simp only [Except.ok.injEq] at he; subst he
      exact runAll_rel hW hr h

/-- All handlers that a delivery of the transition named `n` may run, besides admission. -/
def Router.phases (router : Router O T R) (n : Bytes) : List (Handler O T) :=
  router.pre.at n ++ router.exec.at n ++ router.post.at n

theorem Router.getExec_mem_at {r : Router O T R} {n : Bytes} {h : Handler O T}
    (he : r.getExec n = .ok h) : h ∈ r.exec.at n := by
  have := Router.getExec_mem he
  simp only [HandlerMap.at, List.mem_map, List.mem_filter, decide_eq_true_eq]
  exact ⟨(n, h), ⟨this, rfl⟩, rfl⟩

theorem deliverAdmitted_rel {W : S → S → Prop} (hW : Preorder' W) {sys : Sys S O}
    {router : Router O T R} {run : Handler O T → S → Res S (Except Err Unit)} {users : Users} {t : T}
    (hr : ∀ h ∈ router.phases (tname t), ∀ {s r s'}, run h s = .done r s' → W s s')
    {s : S} {r : Except Err Unit} {s' : S}
    (h : deliverAdmitted sys router run users t s = .done r s') : W s s' := by
  simp only [deliverAdmitted] at h
  split at h
  · cases h
  · simp only [Res.done.injEq] at h; exact h.2 ▸ hW.refl s
  have hpre : ∀ x ∈ (match router.getPre (tname t) with | .error _ => [] | .ok hs => hs),
      x ∈ router.phases (tname t) := by
    intro x hx
    simp only [Router.getPre] at hx
    split at hx
    · simp at hx
    · rename_i hs he
      split at he
      · cases he
      · simp only [Except.ok.injEq] at he; subst he
        simp [Router.phases, hx]
  split at h
  · cases h
  · cases h
  · rename_i e s₁ he
    simp only [Res.done.injEq] at h
    exact h.2 ▸ runAll_rel hW (fun x hx => hr x (hpre x hx)) he
  rename_i s₁ he
  have w1 := runAll_rel hW (fun x hx => hr x (hpre x hx)) he
  refine hW.trans w1 ?_
  split at h
  · simp only [Res.done.injEq] at h; exact h.2 ▸ hW.refl _
  rename_i hd hge
  have hmem := Router.getExec_mem_at hge
  split at h
  · cases h
  · cases h
  · rename_i e s₂ he2
    simp only [Res.done.injEq] at h
    exact h.2 ▸ hr hd (by simp [Router.phases, hmem]) he2
  rename_i s₂ he2
  refine hW.trans (hr hd (by simp [Router.phases, hmem]) he2) ?_
  split at h
  · simp only [Res.done.injEq] at h; exact h.2 ▸ hW.refl _
  · rename_i hs hgp
    simp only [Router.getPost] at hgp
    split at hgp
    · cases hgp
    · simp only [Except.ok.injEq] at hgp; subst hgp
      exact runAll_rel hW (fun x hx => hr x (by simp [Router.phases, hx])) h

theorem mem_owners_admission {router : Router O T R} {n : Bytes} {h : Handler O T}
    (hm : h ∈ router.admission.at n) : h.owner ∈ owners router := by
  have := HandlerMap.mem_at hm
  simp only [owners, List.mem_append, List.mem_map]
  exact .inl (.inl (.inl (.inr ⟨_, this, rfl⟩)))

theorem mem_owners_phases {router : Router O T R} {n : Bytes} {h : Handler O T}
    (hm : h ∈ router.phases n) : h.owner ∈ owners router := by
  simp only [Router.phases, List.mem_append] at hm
  simp only [owners, List.mem_append, List.mem_map]
  rcases hm with (hm | hm) | hm
  · exact .inl (.inl (.inr ⟨_, HandlerMap.mem_at hm, rfl⟩))
  · exact .inl (.inr ⟨_, HandlerMap.mem_at hm, rfl⟩)
  · exact .inr ⟨_, HandlerMap.mem_at hm, rfl⟩

/-- If every write of the router's modules stays within `W`, so does every delivery. -/
theorem deliver_rel {W : S → S → Prop} (hW : Preorder' W) {sys : Sys S O} {router : Router O T R}
    (hc : ∀ m ∈ owners router, ClientRel sys [m] W) :
    ∀ (n : Nat) {skip : Bool} {users : Users} {t : T} {s : S} {r : Except Err Unit} {s' : S},
      deliver sys router n skip users t s = .done r s' → W s s'
  | 0, _, _, _, _, _, _, h => by simp [deliver] at h
  | n + 1, skip, users, t, s, r, s', h => by
    have hrun : ∀ hd : Handler O T, hd.owner ∈ owners router → ∀ {s r s'},
        (hd.code users t).run sys (deliver sys router n false) (Users.ofNames [hd.owner]) s
          = .done r s' → W s s' := by
      intro hd hm s r s' h
      exact Prog.run_rel hW (hc _ hm) (fun h => deliver_rel hW hc n h) _ h
    simp only [deliver] at h
    split at h
    · exact deliverAdmitted_rel hW (fun hd hm => hrun hd (mem_owners_phases hm)) h
    · split at h
      · cases h
      · cases h
      · rename_i e s₁ he
        simp only [Res.done.injEq] at h
        exact h.2 ▸ admissionChain_rel hW (fun hd hm => hrun hd (mem_owners_admission hm)) he
      · rename_i s₁ he
        exact hW.trans (admissionChain_rel hW (fun hd hm => hrun hd (mem_owners_admission hm)) he)
          (deliverAdmitted_rel hW (fun hd hm => hrun hd (mem_owners_phases hm)) h)

theorem txChain_rel {W : S → S → Prop} (hW : Preorder' W) {sys : Sys S O} {router : Router O T R}
    (hc : ∀ m ∈ owners router, ClientRel sys [m] W) {n : Nat} {hs : List (TxHandler O T R)}
    (hh : ∀ h ∈ hs, h.owner ∈ owners router) {tx : Tx T R} {s : S} {r : Except Err Unit} {s' : S}
    (h : txChain sys router n hs tx s = .done r s') : W s s' :=
  runAll_rel hW (fun x hx _ _ _ he =>
    Prog.run_rel hW (hc _ (hh x hx)) (fun h => deliver_rel hW hc n h) _ he) h

/-! ## Allowed writes -/

theorem AllowedWrites.trans {sys : Sys S O} {ms : List Bytes} {a b c : S}
    (h1 : AllowedWrites sys ms a b) (h2 : AllowedWrites sys ms b c) : AllowedWrites sys ms a c := by
  induction h2 with
  | refl => exact h1
  | step s₁ s' m hm _ hw ih => exact .step _ _ _ m hm ih hw

omit [StateObject O] [StateTransition T] in
theorem Sys.authorized_ok {sys : Sys S O} (he : sys.enabled = true) {s : S} {v : Verb} {n : Bytes}
    {u : Users} : sys.authorized s v n u = .ret (.ok ()) ↔ Allows sys s v n u := by
  simp only [Sys.authorized, he, Bool.not_true, Bool.false_eq_true, ↓reduceIte, Allows]
  constructor
  · intro h; split at h <;> simp_all
  · intro h; rw [h]

theorem Sys.write_allowed {sys : Sys S O} (he : sys.enabled = true) {v : Verb} {n : Bytes} {u : Users}
    {act : S → Out (Except OrmErr Unit × S)} {s : S} {r : Except Err Unit} {s' : S}
    (h : sys.write v n u act s = .ret (r, s')) :
    s' = s ∨ (Allows sys s v n u ∧ ∃ r', act s = .ret (r', s')) := by
  simp only [Sys.write] at h
  split at h
  · cases h
  · simp only [Out.ret.injEq, Prod.mk.injEq] at h; exact .inl h.2.symm
  · rename_i ha
    split at h
    · cases h
    · rename_i r' s₁ hact
      split at h
      · cases h
      · simp only [Out.ret.injEq, Prod.mk.injEq] at h
        obtain ⟨_, rfl⟩ := h
        exact .inr ⟨(Sys.authorized_ok he).1 ha, r', hact⟩

theorem AllowedWrites.client {sys : Sys S O} (he : sys.enabled = true) {ms : List Bytes} {m : Bytes}
    (hm : m ∈ ms) : ClientRel sys [m] (AllowedWrites sys ms) where
  create := fun {o s r s'} h => by
    rcases Sys.write_allowed he h with rfl | ⟨ha, r', hact⟩
    · exact .refl _
    · exact .step _ _ _ m hm (.refl _) (.create o _ _ r' ha hact)
  update := fun {o s r s'} h => by
    rcases Sys.write_allowed he h with rfl | ⟨ha, r', hact⟩
    · exact .refl _
    · exact .step _ _ _ m hm (.refl _) (.update o _ _ r' ha hact)
  delete := fun {o s r s'} h => by
    rcases Sys.write_allowed he h with rfl | ⟨ha, r', hact⟩
    · exact .refl _
    · exact .step _ _ _ m hm (.refl _) (.delete o _ _ r' ha hact)

theorem AllowedWrites.preorder (sys : Sys S O) (ms : List Bytes) : Preorder' (AllowedWrites sys ms) :=
  ⟨.refl, AllowedWrites.trans⟩

end
end Verif
