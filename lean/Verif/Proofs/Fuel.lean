import Verif.Proofs.Runtime
/-! The nesting bound of `deliver` is only a bound: a run that ends under one bound is the same
under any larger one. -/

set_option linter.unusedSectionVars false

namespace Verif

variable {S O T R B : Type} [StateObject O] [StateTransition T]

/-- `x` ran out of the bound, or is `y`. -/
def Res.Le {α : Type} (x y : Res S α) : Prop := x = .diverge ∨ x = y

theorem Res.Le.refl {α : Type} (x : Res S α) : x.Le x := .inr rfl

theorem Res.Le.trans {α : Type} {x y z : Res S α} (h1 : x.Le y) (h2 : y.Le z) : x.Le z := by
  rcases h1 with h | rfl
  · exact .inl h
  · exact h2

/-- Go on after a part of the computation known to be `Le`: if it ran out of the bound so does the
whole, otherwise split on its result and close the branches that end there. -/
macro "le_step " h:term : tactic => `(tactic| (
  have hle := $h
  refine Or.elim hle (fun e => Or.inl (by simp only [e])) (fun e => ?_)
  simp only [e]
  split
  all_goals first | exact Res.Le.refl _ | skip))

theorem Prog.run_le {α : Type} {sys : Sys S O} {me : Users}
    {d d' : Users → T → S → Res S (Except Err Unit)} (hd : ∀ u t s, (d u t s).Le (d' u t s))
    (p : Prog O T α) : ∀ s, (p.run sys d me s).Le (p.run sys d' me s) := by
  induction p with
  | ret a => intro s; exact .refl _
  | crash => intro s; exact .refl _
  | get ty id k ih =>
    intro s; simp only [Prog.run]
    split
    · exact .refl _
    · exact ih _ _
  | list ty opt k ih =>
    intro s; simp only [Prog.run]
    split
    · exact .refl _
    · exact ih _ _
  | create o k ih =>
    intro s; simp only [Prog.run]
    split
    · exact .refl _
    · exact ih _ _
  | update o k ih =>
    intro s; simp only [Prog.run]
    split
    · exact .refl _
    · exact ih _ _
  | delete o k ih =>
    intro s; simp only [Prog.run]
    split
    · exact .refl _
    · exact ih _ _
  | deliver t imp k ih =>
    intro s
    simp only [Prog.run]
    le_step (hd (Users.union [some me, imp]) t s)
    exact ih _ _

theorem runAll_le {H : Type} {run run' : H → S → Res S (Except Err Unit)} {wrap : Err → Err}
    (h : ∀ x s, (run x s).Le (run' x s)) : ∀ (l : List H) s,
    (runAll run wrap l s).Le (runAll run' wrap l s)
  | [], s => .refl _
  | x :: xs, s => by
    simp only [runAll]
    le_step (h x s)
    exact runAll_le h xs _

theorem admissionChain_le {router : Router O T R} {run run' : Handler O T → S → Res S (Except Err Unit)}
    (h : ∀ x s, (run x s).Le (run' x s)) (t : T) (s : S) :
    (admissionChain router run t s).Le (admissionChain router run' t s) := by
  simp only [admissionChain]
  split
  · exact .refl _
  · exact runAll_le h _ _

theorem deliverAdmitted_le {sys : Sys S O} {router : Router O T R}
    {run run' : Handler O T → S → Res S (Except Err Unit)}
    (h : ∀ x s, (run x s).Le (run' x s)) (users : Users) (t : T) (s : S) :
    (deliverAdmitted sys router run users t s).Le (deliverAdmitted sys router run' users t s) := by
  simp only [deliverAdmitted]
  split
  · exact .refl _
  · exact .refl _
  · have key : ∀ pres : List (Handler O T), Res.Le
        (match runAll run id pres s with
        | .panic => .panic
        | .diverge => .diverge
        | .done (.error e) s => .done (.error e) s
        | .done (.ok ()) s => match router.getExec (tname t) with
          | .error e => .done (.error e) s
          | .ok h => match run h s with
            | .panic => .panic
            | .diverge => .diverge
            | .done (.error e) s => .done (.error e) s
            | .done (.ok ()) s => match router.getPost (tname t) with
              | .error e => .done (.error e) s
              | .ok hs => runAll run id hs s)
        (match runAll run' id pres s with
        | .panic => .panic
        | .diverge => .diverge
        | .done (.error e) s => .done (.error e) s
        | .done (.ok ()) s => match router.getExec (tname t) with
          | .error e => .done (.error e) s
          | .ok h => match run' h s with
            | .panic => .panic
            | .diverge => .diverge
            | .done (.error e) s => .done (.error e) s
            | .done (.ok ()) s => match router.getPost (tname t) with
              | .error e => .done (.error e) s
              | .ok hs => runAll run' id hs s) := by
      intro pres
      le_step (runAll_le (wrap := id) h pres s)
      rename_i s₁ _
      cases router.getExec (tname t) with
      | error e => exact .refl _
      | ok hd =>
        simp only
        le_step (h hd s₁)
        cases router.getPost (tname t) with
        | error e => exact .refl _
        | ok hs => exact runAll_le h _ _
    exact key _

theorem deliver_le_succ {sys : Sys S O} {router : Router O T R} : ∀ (n : Nat) (skip : Bool)
    (users : Users) (t : T) (s : S),
    (deliver sys router n skip users t s).Le (deliver sys router (n + 1) skip users t s)
  | 0, _, _, _, _ => .inl rfl
  | n + 1, skip, users, t, s => by
    have hrun : ∀ (h : Handler O T) s,
        ((h.code users t).run sys (deliver sys router n false) (Users.ofNames [h.owner]) s).Le
        ((h.code users t).run sys (deliver sys router (n + 1) false) (Users.ofNames [h.owner]) s) :=
      fun h s => Prog.run_le (fun u t s => deliver_le_succ n false u t s) _ s
    rw [deliver, deliver]
    cases skip with
    | true => exact deliverAdmitted_le hrun _ _ _
    | false =>
      simp only [Bool.false_eq_true, if_false]
      le_step (admissionChain_le (router := router)
        (run := fun h s => (h.code users t).run sys (deliver sys router n false) (Users.ofNames [h.owner]) s)
        (run' := fun h s => (h.code users t).run sys (deliver sys router (n + 1) false)
          (Users.ofNames [h.owner]) s) hrun t s)
      exact deliverAdmitted_le hrun _ _ _

theorem deliver_le {sys : Sys S O} {router : Router O T R} {n m : Nat} (h : n ≤ m) (skip : Bool)
    (users : Users) (t : T) (s : S) :
    (deliver sys router n skip users t s).Le (deliver sys router m skip users t s) := by
  induction h with
  | refl => exact .refl _
  | step _ ih => exact ih.trans (deliver_le_succ _ _ _ _ _)

theorem txChain_le {sys : Sys S O} {router : Router O T R} {n m : Nat} (h : n ≤ m)
    (hs : List (TxHandler O T R)) (tx : Tx T R) (s : S) :
    (txChain sys router n hs tx s).Le (txChain sys router m hs tx s) :=
  runAll_le (fun _ s => Prog.run_le (fun u t s => deliver_le h false u t s) _ s) _ _

namespace Config
variable {c : Config S O T R B} {n m : Nat} (h : n ≤ m)
include h

theorem deliver_le' (en skip : Bool) (users : Users) (t : T) (s : S) :
    (c.deliver n en skip users t s).Le (c.deliver m en skip users t s) := deliver_le h _ _ _ _

theorem runAs_le (en : Bool) (owner : Bytes) (p : Prog O T (Except Err Unit)) (s : S) :
    (c.runAs n en owner p s).Le (c.runAs m en owner p s) :=
  Prog.run_le (fun u t s => deliver_le h false u t s) _ s

theorem initGenesis_le (a : App S) : (c.initGenesis n a).Le (c.initGenesis m a) := by
  simp only [initGenesis]
  split
  · exact .refl _
  · le_step (deliver_le' (c := c) h a.enabled false (Users.ofNames [userRuntime]) c.createModules a.store)
    rename_i s₁ _
    le_step (runAll_le (wrap := id) (run := fun (g : Genesis O T) s => c.runAs n a.enabled g.owner g.default s)
      (run' := fun (g : Genesis O T) s => c.runAs m a.enabled g.owner g.default s)
      (fun (g : Genesis O T) s => runAs_le (c := c) h a.enabled g.owner g.default s)
      c.genesis s₁)

theorem importState_le (st : Bytes) (a : App S) : (c.importState n st a).Le (c.importState m st a) := by
  simp only [importState]
  split
  · exact .refl _
  · rename_i data _
    le_step (runAll_le (wrap := id)
      (run := fun (g : Genesis O T) s => c.runAs n a.enabled g.owner (g.import_ (data g.owner)) s)
      (run' := fun (g : Genesis O T) s => c.runAs m a.enabled g.owner (g.import_ (data g.owner)) s)
      (fun (g : Genesis O T) s => runAs_le (c := c) h a.enabled g.owner
      (g.import_ (data g.owner)) s) c.genesis a.store)

theorem initChain_le (id st : Bytes) (a : App S) : (c.initChain n id st a).Le (c.initChain m id st a) := by
  simp only [initChain]
  have h1 : (if st.length = 0 then c.initGenesis n a else c.importState n st a).Le
      (if st.length = 0 then c.initGenesis m a else c.importState m st a) := by
    split
    · exact initGenesis_le h _
    · exact importState_le h _ _
  le_step h1
  rename_i a₁ _
  le_step (deliver_le' (c := c) h a₁.enabled false (Users.ofNames [userABCI]) (c.setInitChain id) a₁.store)

theorem checkTx_le (tx : Bytes) (a : App S) : (c.checkTx n tx a).Le (c.checkTx m tx a) := by
  simp only [checkTx]
  split
  · exact .refl _
  split
  · exact .refl _
  · exact .refl _
  rename_i x _
  le_step (txChain_le (sys := c.sys a.enabled) (router := c.router) h c.router.authAdmission x a.store)
  rename_i s₁ _
  le_step (runAll_le (wrap := id)
    (run := fun t s => admissionChain c.router (fun hd s =>
      c.runAs n a.enabled hd.owner (hd.code x.users t) s) t s)
    (run' := fun t s => admissionChain c.router (fun hd s =>
      c.runAs m a.enabled hd.owner (hd.code x.users t) s) t s)
    (fun t s => admissionChain_le (router := c.router)
    (fun hd s => runAs_le (c := c) h a.enabled hd.owner (hd.code x.users t) s) t s) x.transitions s₁)

theorem deliverTx_le (tx : Bytes) (a : App S) : (c.deliverTx n tx a).Le (c.deliverTx m tx a) := by
  simp only [deliverTx]
  split
  · exact .refl _
  split
  · exact .refl _
  · exact .refl _
  rename_i x _
  le_step (txChain_le (sys := c.sys a.enabled) (router := c.router) h c.router.authAdmission x a.store)
  rename_i s₁ _
  le_step (txChain_le (sys := c.sys a.enabled) (router := c.router) h c.router.postAuth x s₁)
  rename_i s₂ _
  le_step (runAll_le (wrap := id) (run := fun t s => c.deliver n a.enabled true x.users t s)
    (run' := fun t s => c.deliver m a.enabled true x.users t s) (fun t s => deliver_le' (c := c) h a.enabled true x.users t s)
    x.transitions s₂)

theorem beginBlock_le (b : B) (a : App S) : (c.beginBlock n b a).Le (c.beginBlock m b a) := by
  simp only [beginBlock]
  cases c.setBeginBlock b with
  | panic => exact .refl _
  | ret t => le_step (deliver_le' (c := c) h a.enabled false (Users.ofNames [userABCI]) t a.store)

theorem endBlock_le (b : Int) (a : App S) : (c.endBlock n b a).Le (c.endBlock m b a) := by
  simp only [endBlock]
  le_step (deliver_le' (c := c) h a.enabled false (Users.ofNames [userABCI]) (c.setEndBlock b) a.store)

omit h in
theorem mapRes_le {S α β : Type} {f : α → β} {x y : Res S α} (h : x.Le y) :
    (mapRes f x).Le (mapRes f y) := by
  rcases h with rfl | rfl
  · exact .inl rfl
  · exact .refl _

theorem step_le (a : App S) (call : Call B) : (c.step n a call).Le (c.step m a call) := by
  cases call with
  | info => exact .refl _
  | commit => exact .refl _
  | query p => exact .refl _
  | checkTx tx => exact mapRes_le (checkTx_le h _ _)
  | deliverTx tx => exact mapRes_le (deliverTx_le h _ _)
  | initChain id st => exact mapRes_le (initChain_le h _ _ _)
  | beginBlock b => exact mapRes_le (beginBlock_le h _ _)
  | endBlock b => exact mapRes_le (endBlock_le h _ _)

theorem steps_le : ∀ (calls : List (Call B)) (a : App S), (c.steps n a calls).Le (c.steps m a calls)
  | [], a => .refl _
  | x :: xs, a => by
    simp only [steps]
    le_step (step_le (c := c) h a x)
    rename_i r a₁ _
    le_step (steps_le xs a₁)

end Config
end Verif
