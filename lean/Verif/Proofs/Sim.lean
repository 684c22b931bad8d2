import Verif.Proofs.Runtime
import Verif.Proofs.ORMFacts
import Verif.Spec.MapStore
/-! An application on the ORM store behaves as the same application on a map. -/

set_option linter.unusedSectionVars false
set_option linter.unusedSimpArgs false

namespace Verif
open Spec

variable {S S' O T R B : Type}

/-- The same outcome, with states related by `Q`. -/
inductive Res.Rel {α : Type} (Q : S → S' → Prop) : Res S α → Res S' α → Prop
  | done (a : α) {s : S} {m : S'} (h : Q s m) : Rel Q (.done a s) (.done a m)
  | panic : Rel Q .panic .panic
  | diverge : Rel Q .diverge .diverge

/-- The same for store operations. -/
inductive Out.Rel {α : Type} (Q : S → S' → Prop) : Out (α × S) → Out (α × S') → Prop
  | ret (a : α) {s : S} {m : S'} (h : Q s m) : Rel Q (.ret (a, s)) (.ret (a, m))
  | panic : Rel Q .panic .panic

/-- `ops'` reproduces every call of `ops`, keeping states related by `Q`. -/
structure StoreSim (ops : StoreOps S O) (ops' : StoreOps S' O) (Q : S → S' → Prop) : Prop where
  get : ∀ {s m}, Q s m → ops.get s = ops'.get m
  list : ∀ {s m}, Q s m → ∀ ty opt, ops.list s ty opt = ops'.list m ty opt
  create : ∀ {s m}, Q s m → ∀ o, Out.Rel Q (ops.create s o) (ops'.create m o)
  update : ∀ {s m}, Q s m → ∀ o, Out.Rel Q (ops.update s o) (ops'.update m o)
  delete : ∀ {s m}, Q s m → ∀ o, Out.Rel Q (ops.delete s o) (ops'.delete m o)

theorem Res.Rel.cases {α : Type} {Q : S → S' → Prop} {x : Res S α} {y : Res S' α} (h : Res.Rel Q x y) :
    (∃ a s m, x = .done a s ∧ y = .done a m ∧ Q s m) ∨ (x = .panic ∧ y = .panic) ∨
      (x = .diverge ∧ y = .diverge) := by
  cases h with
  | done a h => exact .inl ⟨_, _, _, rfl, rfl, h⟩
  | panic => exact .inr (.inl ⟨rfl, rfl⟩)
  | diverge => exact .inr (.inr ⟨rfl, rfl⟩)

theorem Out.Rel.cases {α : Type} {Q : S → S' → Prop} {x : Out (α × S)} {y : Out (α × S')} (h : Out.Rel Q x y) :
    (∃ a s m, x = .ret (a, s) ∧ y = .ret (a, m) ∧ Q s m) ∨ (x = .panic ∧ y = .panic) := by
  cases h with
  | ret a h => exact .inl ⟨_, _, _, rfl, rfl, h⟩
  | panic => exact .inr ⟨rfl, rfl⟩

/-- Go on after a related outcome, as all ABCI methods do. -/
theorem Res.Rel.bind {α S₁ S₁' : Type} {Q : S → S' → Prop} {Q₁ : S₁ → S₁' → Prop} {x : Res S (Except Err Unit)} {y : Res S' (Except Err Unit)}
    (h : Res.Rel Q x y) {e : Err → S → Res S₁ α} {e' : Err → S' → Res S₁' α} {k : S → Res S₁ α} {k' : S' → Res S₁' α}
    (he : ∀ x s m, Q s m → Res.Rel Q₁ (e x s) (e' x m)) (hk : ∀ s m, Q s m → Res.Rel Q₁ (k s) (k' m)) :
    Res.Rel Q₁
      (match (generalizing := false) x with
        | .panic => .panic
        | .diverge => .diverge
        | .done (.error x) s => e x s
        | .done (.ok ()) s => k s)
      (match (generalizing := false) y with
        | .panic => .panic
        | .diverge => .diverge
        | .done (.error x) s => e' x s
        | .done (.ok ()) s => k' s) := by
  cases h with
  | done a h =>
    rcases a with x | ⟨⟩
    · exact he _ _ _ h
    · exact hk _ _ h
  | panic => exact .panic
  | diverge => exact .diverge

section
variable {ops : StoreOps S O} {ops' : StoreOps S' O} {Q : S → S' → Prop} (hs : StoreSim ops ops' Q)
  {auth : Authorizer O} {en : Bool}
include hs

theorem StoreSim.sysGet {s : S} {m : S'} (h : Q s m) :
    Sys.get { ops, authorizer := auth, enabled := en } s
      = Sys.get { ops := ops', authorizer := auth, enabled := en } m := by
  funext ty id; simp only [Sys.get, hs.get h]

theorem StoreSim.sysList {s : S} {m : S'} (h : Q s m) (ty : Bytes) (opt : ListOptions) :
    Sys.list { ops, authorizer := auth, enabled := en } s ty opt
      = Sys.list { ops := ops', authorizer := auth, enabled := en } m ty opt := by
  simp only [Sys.list, hs.list h]

theorem StoreSim.authorized {s : S} {m : S'} (h : Q s m) (v : Verb) (n : Bytes) (u : Users) :
    Sys.authorized { ops, authorizer := auth, enabled := en } s v n u
      = Sys.authorized { ops := ops', authorizer := auth, enabled := en } m v n u := by
  simp only [Sys.authorized, hs.sysGet h]

theorem StoreSim.write {s : S} {m : S'} (h : Q s m) {v : Verb} {n : Bytes} {u : Users}
    {act : S → Out (Except OrmErr Unit × S)} {act' : S' → Out (Except OrmErr Unit × S')}
    (ha : Out.Rel Q (act s) (act' m)) :
    Out.Rel Q (Sys.write { ops, authorizer := auth, enabled := en } v n u act s)
      (Sys.write { ops := ops', authorizer := auth, enabled := en } v n u act' m) := by
  simp only [Sys.write]
  rw [← hs.authorized h]
  split
  · exact .panic
  · exact .ret _ h
  · rcases ha.cases with ⟨r, s₁, m₁, h1, h2, hq⟩ | ⟨h1, h2⟩
    · simp only [h1, h2]
      cases convertStoreError r with
      | panic => exact .panic
      | ret r => exact .ret _ hq
    · simp only [h1, h2]
      exact .panic

variable [StateObject O]

theorem Prog.run_same {α : Type} {me : Users} {dlv : Users → T → S → Res S (Except Err Unit)}
    {dlv' : Users → T → S' → Res S' (Except Err Unit)}
    (hd : ∀ u t s m, Q s m → Res.Rel Q (dlv u t s) (dlv' u t m)) (p : Prog O T α) :
    ∀ (s : S) (m : S'), Q s m → Res.Rel Q
      (p.run { ops, authorizer := auth, enabled := en } dlv me s)
      (p.run { ops := ops', authorizer := auth, enabled := en } dlv' me m) := by
  induction p with
  | ret a => intro s m h; exact .done a h
  | crash => intro s m h; exact .panic
  | get ty id k ih =>
    intro s m h
    simp only [Prog.run]
    rw [← hs.sysGet h]
    split
    · exact .panic
    · exact ih _ s m h
  | list ty opt k ih =>
    intro s m h
    simp only [Prog.run]
    rw [← hs.sysList h]
    split
    · exact .panic
    · exact ih _ s m h
  | create o k ih =>
    intro s m h
    simp only [Prog.run, Sys.create]
    rcases (hs.write (auth := auth) (en := en) h (v := .create) (n := (StateObject.api o).name) (u := me)
      (act := fun s => ops.create s o) (act' := fun m => ops'.create m o) (hs.create h o)).cases with
      ⟨r, s₁, m₁, h1, h2, hq⟩ | ⟨h1, h2⟩
    · simp only [h1, h2]; exact ih _ _ _ hq
    · simp only [h1, h2]; exact .panic
  | update o k ih =>
    intro s m h
    simp only [Prog.run, Sys.update]
    rcases (hs.write (auth := auth) (en := en) h (v := .update) (n := (StateObject.api o).name) (u := me)
      (act := fun s => ops.update s o) (act' := fun m => ops'.update m o) (hs.update h o)).cases with
      ⟨r, s₁, m₁, h1, h2, hq⟩ | ⟨h1, h2⟩
    · simp only [h1, h2]; exact ih _ _ _ hq
    · simp only [h1, h2]; exact .panic
  | delete o k ih =>
    intro s m h
    simp only [Prog.run, Sys.delete]
    rcases (hs.write (auth := auth) (en := en) h (v := .delete) (n := (StateObject.api o).name) (u := me)
      (act := fun s => ops.delete s o) (act' := fun m => ops'.delete m o) (hs.delete h o)).cases with
      ⟨r, s₁, m₁, h1, h2, hq⟩ | ⟨h1, h2⟩
    · simp only [h1, h2]; exact ih _ _ _ hq
    · simp only [h1, h2]; exact .panic
  | deliver t imp k ih =>
    intro s m h
    simp only [Prog.run]
    rcases (hd (Users.union [some me, imp]) t s m h).cases with
      ⟨r, s₁, m₁, h1, h2, hq⟩ | ⟨h1, h2⟩ | ⟨h1, h2⟩
    · simp only [h1, h2]; exact ih _ _ _ hq
    · simp only [h1, h2]; exact .panic
    · simp only [h1, h2]; exact .diverge

omit hs in
theorem runAll_same {H : Type} {run : H → S → Res S (Except Err Unit)}
    {run' : H → S' → Res S' (Except Err Unit)} {wrap : Err → Err}
    (hr : ∀ h s m, Q s m → Res.Rel Q (run h s) (run' h m)) :
    ∀ (l : List H) (s : S) (m : S'), Q s m → Res.Rel Q (runAll run wrap l s) (runAll run' wrap l m)
  | [], s, m, h => .done _ h
  | x :: xs, s, m, h => by
    simp only [runAll]
    rcases (hr x s m h).cases with ⟨r, s₁, m₁, h1, h2, hq⟩ | ⟨h1, h2⟩ | ⟨h1, h2⟩
    · simp only [h1, h2]
      rcases r with e | ⟨⟩
      · exact .done _ hq
      · exact runAll_same hr xs _ _ hq
    · simp only [h1, h2]; exact .panic
    · simp only [h1, h2]; exact .diverge

variable [StateTransition T]

omit hs in
theorem admissionChain_same {router : Router O T R} {run : Handler O T → S → Res S (Except Err Unit)}
    {run' : Handler O T → S' → Res S' (Except Err Unit)}
    (hr : ∀ h s m, Q s m → Res.Rel Q (run h s) (run' h m)) {t : T} {s : S} {m : S'} (h : Q s m) :
    Res.Rel Q (admissionChain router run t s) (admissionChain router run' t m) := by
  simp only [admissionChain]
  split
  · exact .done _ h
  · exact runAll_same hr _ _ _ h

theorem deliverAdmitted_same {router : Router O T R} {run : Handler O T → S → Res S (Except Err Unit)}
    {run' : Handler O T → S' → Res S' (Except Err Unit)} {users : Users}
    (hr : ∀ h s m, Q s m → Res.Rel Q (run h s) (run' h m)) {t : T} {s : S} {m : S'} (h : Q s m) :
    Res.Rel Q (deliverAdmitted { ops, authorizer := auth, enabled := en } router run users t s)
      (deliverAdmitted { ops := ops', authorizer := auth, enabled := en } router run' users t m) := by
  simp only [deliverAdmitted]
  rw [← hs.authorized h]
  split
  · exact .panic
  · exact .done _ h
  refine (runAll_same (wrap := id) hr _ _ _ h).bind (fun _ _ _ hq => .done _ hq) (fun s₁ m₁ hq => ?_)
  cases router.getExec (tname t) with
  | error e => exact .done _ hq
  | ok hd =>
    refine (hr hd s₁ m₁ hq).bind (fun _ _ _ hq => .done _ hq) (fun s₂ m₂ hq2 => ?_)
    cases router.getPost (tname t) with
    | error e => exact .done _ hq2
    | ok hs => exact runAll_same hr _ _ _ hq2

theorem deliver_same {router : Router O T R} : ∀ (n : Nat) (skip : Bool) (users : Users) (t : T)
    (s : S) (m : S'), Q s m →
    Res.Rel Q (deliver { ops, authorizer := auth, enabled := en } router n skip users t s)
      (deliver { ops := ops', authorizer := auth, enabled := en } router n skip users t m)
  | 0, _, _, _, _, _, _ => .diverge
  | n + 1, skip, users, t, s, m, h => by
    have hr : ∀ (hd : Handler O T) s m, Q s m → Res.Rel Q
        ((hd.code users t).run { ops, authorizer := auth, enabled := en }
          (deliver { ops, authorizer := auth, enabled := en } router n false) (Users.ofNames [hd.owner]) s)
        ((hd.code users t).run { ops := ops', authorizer := auth, enabled := en }
          (deliver { ops := ops', authorizer := auth, enabled := en } router n false)
          (Users.ofNames [hd.owner]) m) := by
      intro hd s m h
      exact Prog.run_same hs (fun u t s m h => deliver_same n false u t s m h) _ _ _ h
    simp only [deliver]
    cases skip with
    | true =>
      simp only [if_true]
      exact deliverAdmitted_same hs hr h
    | false =>
      simp only [Bool.false_eq_true, if_false]
      rcases (admissionChain_same (router := router) (t := t) hr h).cases with
        ⟨r, s₁, m₁, h1, h2, hq⟩ | ⟨h1, h2⟩ | ⟨h1, h2⟩
      · simp only [h1, h2]
        rcases r with e | ⟨⟩
        · exact .done _ hq
        · exact deliverAdmitted_same hs hr hq
      · simp only [h1, h2]; exact .panic
      · simp only [h1, h2]; exact .diverge

theorem txChain_same {router : Router O T R} {n : Nat} {l : List (TxHandler O T R)} {tx : Tx T R}
    {s : S} {m : S'} (h : Q s m) :
    Res.Rel Q (txChain { ops, authorizer := auth, enabled := en } router n l tx s)
      (txChain { ops := ops', authorizer := auth, enabled := en } router n l tx m) := by
  unfold txChain
  refine runAll_same ?_ l _ _ h
  intro hd s m h
  exact Prog.run_same hs (fun u t s m h => deliver_same hs n false u t s m h) (hd.code tx) _ _ h

end

/-! ## The ABCI application -/

section
variable [StateObject O] [StateTransition T] {c : Config S O T R B} {ops' : StoreOps S' O}
  {Q : S → S' → Prop} (hs : StoreSim c.ops ops' Q)

/-- Related application states. -/
structure AppSim (Q : S → S' → Prop) (a : App S) (b : App S') : Prop where
  store : Q a.store b.store
  enabled : a.enabled = b.enabled
  initialized : a.initialized = b.initialized

include hs

theorem Config.runAs_same {n : Nat} {en : Bool} {owner : Bytes} {p : Prog O T (Except Err Unit)}
    {s : S} {m : S'} (h : Q s m) :
    Res.Rel Q (c.runAs n en owner p s) ((onStore c ops').runAs n en owner p m) :=
  Prog.run_same hs (fun u t s m h => deliver_same hs n false u t s m h) _ _ _ h

theorem Config.deliver_same {n : Nat} {en skip : Bool} {users : Users} {t : T} {s : S} {m : S'} (h : Q s m) :
    Res.Rel Q (c.deliver n en skip users t s) ((onStore c ops').deliver n en skip users t m) :=
  Verif.deliver_same hs n skip users t s m h

theorem Config.initGenesis_same {n : Nat} {a : App S} {b : App S'} (h : AppSim Q a b) :
    Res.Rel (AppSim Q) (c.initGenesis n a) ((onStore c ops').initGenesis n b) := by
  simp only [Config.initGenesis, ← h.initialized, ← h.enabled]
  by_cases hi : a.initialized = true
  · simp only [hi, if_true]; exact .done _ h
  simp only [hi, Bool.false_eq_true, if_false]
  have h0 : Res.Rel Q (c.deliver n a.enabled false (Users.ofNames [userRuntime]) c.createModules a.store)
    ((onStore c ops').deliver n a.enabled false (Users.ofNames [userRuntime])
      (onStore c ops').createModules b.store) := Config.deliver_same hs h.store
  refine h0.bind (fun x s m hq => .done _ ⟨hq, by simp [h.enabled], by simp [h.initialized]⟩) (fun s m hq => ?_)
  have h1 : Res.Rel Q (runAll (fun (g : Genesis O T) s => c.runAs n a.enabled g.owner g.default s) id c.genesis s)
      (runAll (fun (g : Genesis O T) s => (onStore c ops').runAs n a.enabled g.owner g.default s) id
        (onStore c ops').genesis m) :=
    runAll_same (by intro g s m h; exact Config.runAs_same hs h) _ _ _ hq
  exact h1.bind (fun x s m hq => .done _ ⟨hq, by simp [h.enabled], by simp [h.initialized]⟩)
    (fun s m hq => .done _ ⟨hq, by simp [h.enabled], rfl⟩)

theorem Config.importState_same {n : Nat} {st : Bytes} {a : App S} {b : App S'} (h : AppSim Q a b) :
    Res.Rel (AppSim Q) (c.importState n st a) ((onStore c ops').importState n st b) := by
  simp only [Config.importState, ← h.enabled]
  have : (onStore c ops').parseGenesis = c.parseGenesis := rfl
  rw [this]
  cases c.parseGenesis st with
  | error e => exact .done _ h
  | ok data =>
    dsimp only
    have h1 : Res.Rel Q (runAll (fun (g : Genesis O T) s => c.runAs n a.enabled g.owner (g.import_ (data g.owner)) s)
        id c.genesis a.store)
        (runAll (fun (g : Genesis O T) s => (onStore c ops').runAs n a.enabled g.owner (g.import_ (data g.owner)) s)
        id (onStore c ops').genesis b.store) :=
      runAll_same (by intro g s m h; exact Config.runAs_same hs h) _ _ _ h.store
    rcases h1.cases with ⟨r, s₁, m₁, h1, h2, hq⟩ | ⟨h1, h2⟩ | ⟨h1, h2⟩
    · simp only [h1, h2]; exact .done _ ⟨hq, by simp [h.enabled], by simp [h.initialized]⟩
    · simp only [h1, h2]; exact .panic
    · simp only [h1, h2]; exact .diverge

theorem Config.initChain_same {n : Nat} {id st : Bytes} {a : App S} {b : App S'} (h : AppSim Q a b) :
    Res.Rel (AppSim Q) (c.initChain n id st a) ((onStore c ops').initChain n id st b) := by
  have hfirst : Res.Rel (AppSim Q)
      (if st.length = 0 then c.initGenesis n a else c.importState n st a)
      (if st.length = 0 then (onStore c ops').initGenesis n b
        else (onStore c ops').importState n st b) := by
    split
    · exact Config.initGenesis_same hs h
    · exact Config.importState_same hs h
  simp only [Config.initChain]
  rcases hfirst.cases with ⟨r, a₁, b₁, e1, e2, h1⟩ | ⟨e1, e2⟩ | ⟨e1, e2⟩
  rotate_left
  · simp only [e1, e2]; exact .panic
  · simp only [e1, e2]; exact .diverge
  simp only [e1, e2]
  rcases r with e | u
  · exact .panic
  cases u
  dsimp only
  have h0 : Res.Rel Q (c.deliver n a₁.enabled false (Users.ofNames [userABCI]) (c.setInitChain id) a₁.store)
    ((onStore c ops').deliver n a₁.enabled false (Users.ofNames [userABCI])
      ((onStore c ops').setInitChain id) b₁.store) := Config.deliver_same hs h1.store
  rw [← h1.enabled]
  exact h0.bind (fun _ _ _ _ => .panic) (fun s m hq => .done _ ⟨hq, rfl, h1.initialized⟩)

theorem Config.checkTx_same {n : Nat} {tx : Bytes} {a : App S} {b : App S'} (h : AppSim Q a b) :
    Res.Rel (AppSim Q) (c.checkTx n tx a) ((onStore c ops').checkTx n tx b) := by
  simp only [Config.checkTx, ← h.enabled]
  have : (onStore c ops').decode = c.decode := rfl
  rw [this]
  cases c.decode with
  | none => exact .panic
  | some decode =>
    dsimp only
    rcases decode tx with ⟨e | dtx⟩ | _
    · exact .done _ h
    · dsimp only
      have h0 : Res.Rel Q (txChain (c.sys a.enabled) c.router n c.router.authAdmission dtx a.store)
        (txChain ((onStore c ops').sys a.enabled) (onStore c ops').router n
          (onStore c ops').router.authAdmission dtx b.store) := txChain_same hs h.store
      refine h0.bind (fun x s m hq => .done _ ⟨hq, by simp [h.enabled], by simp [h.initialized]⟩) (fun s m hq => ?_)
      have h1 : Res.Rel Q (runAll (fun t s => admissionChain c.router (fun hd s =>
            c.runAs n a.enabled hd.owner (hd.code dtx.users t) s) t s) id dtx.transitions s)
          (runAll (fun t s => admissionChain (onStore c ops').router (fun hd s =>
            (onStore c ops').runAs n a.enabled hd.owner (hd.code dtx.users t) s) t s) id dtx.transitions m) :=
        runAll_same (by intro t s m h; exact admissionChain_same (by intro hd s m h; exact Config.runAs_same hs h) h) _ _ _ hq
      exact h1.bind (fun x s m hq => .done _ ⟨hq, by simp [h.enabled], by simp [h.initialized]⟩)
        (fun s m hq => .done _ ⟨hq, by simp [h.enabled], by simp [h.initialized]⟩)
    · exact .panic

theorem Config.deliverTx_same {n : Nat} {tx : Bytes} {a : App S} {b : App S'} (h : AppSim Q a b) :
    Res.Rel (AppSim Q) (c.deliverTx n tx a) ((onStore c ops').deliverTx n tx b) := by
  simp only [Config.deliverTx, ← h.enabled]
  have : (onStore c ops').decode = c.decode := rfl
  rw [this]
  cases c.decode with
  | none => exact .panic
  | some decode =>
    dsimp only
    rcases decode tx with ⟨e | dtx⟩ | _
    · exact .done _ h
    · dsimp only
      have h0 : Res.Rel Q (txChain (c.sys a.enabled) c.router n c.router.authAdmission dtx a.store)
        (txChain ((onStore c ops').sys a.enabled) (onStore c ops').router n
          (onStore c ops').router.authAdmission dtx b.store) := txChain_same hs h.store
      refine h0.bind (fun x s m hq => .done _ ⟨hq, by simp [h.enabled], by simp [h.initialized]⟩) (fun s m hq => ?_)
      have h0 : Res.Rel Q (txChain (c.sys a.enabled) c.router n c.router.postAuth dtx s)
        (txChain ((onStore c ops').sys a.enabled) (onStore c ops').router n
          (onStore c ops').router.postAuth dtx m) := txChain_same hs hq
      refine h0.bind (fun x s m hq => .done _ ⟨hq, by simp [h.enabled], by simp [h.initialized]⟩) (fun s m hq => ?_)
      have h1 : Res.Rel Q (runAll (fun t s => c.deliver n a.enabled true dtx.users t s) id dtx.transitions s)
          (runAll (fun t s => (onStore c ops').deliver n a.enabled true dtx.users t s) id dtx.transitions m) :=
        runAll_same (by intro t s m h; exact Config.deliver_same hs h) _ _ _ hq
      exact h1.bind (fun x s m hq => .done _ ⟨hq, by simp [h.enabled], by simp [h.initialized]⟩)
        (fun s m hq => .done _ ⟨hq, by simp [h.enabled], by simp [h.initialized]⟩)
    · exact .panic

theorem Config.beginBlock_same {n : Nat} {x : B} {a : App S} {b : App S'} (h : AppSim Q a b) :
    Res.Rel (AppSim Q) (c.beginBlock n x a) ((onStore c ops').beginBlock n x b) := by
  simp only [Config.beginBlock, ← h.enabled]
  have : (onStore c ops').setBeginBlock x = c.setBeginBlock x := rfl
  rw [this]
  cases c.setBeginBlock x with
  | panic => exact .panic
  | ret t =>
    have h0 : Res.Rel Q (c.deliver n a.enabled false (Users.ofNames [userABCI]) t a.store)
      ((onStore c ops').deliver n a.enabled false (Users.ofNames [userABCI]) t b.store) :=
        Config.deliver_same hs h.store
    exact h0.bind (fun _ _ _ _ => .panic) (fun s m hq => .done _ ⟨hq, by simp [h.enabled], by simp [h.initialized]⟩)

theorem Config.endBlock_same {n : Nat} {x : Int} {a : App S} {b : App S'} (h : AppSim Q a b) :
    Res.Rel (AppSim Q) (c.endBlock n x a) ((onStore c ops').endBlock n x b) := by
  simp only [Config.endBlock, ← h.enabled]
  have h0 : Res.Rel Q (c.deliver n a.enabled false (Users.ofNames [userABCI]) (c.setEndBlock x) a.store)
    ((onStore c ops').deliver n a.enabled false (Users.ofNames [userABCI])
      ((onStore c ops').setEndBlock x) b.store) := Config.deliver_same hs h.store
  refine h0.bind (fun _ _ _ _ => .panic) (fun s m hq => ?_)
  have : ((onStore c ops').sys a.enabled).get m = (c.sys a.enabled).get s :=
    (hs.sysGet (auth := c.authorizer) (en := a.enabled) hq).symm
  rw [this]
  have : (onStore c ops').valUpdatesType = c.valUpdatesType := rfl
  rw [this]
  have : (onStore c ops').singletonId = c.singletonId := rfl
  rw [this]
  rcases (c.sys a.enabled).get s c.valUpdatesType c.singletonId with ⟨e | o⟩ | _
  · exact .panic
  · have : (onStore c ops').toLegacy o = c.toLegacy o := rfl
    dsimp only
    rw [this]
    cases c.toLegacy o with
    | panic => exact .panic
    | ret us => exact .done _ ⟨hq, by simp [h.enabled], by simp [h.initialized]⟩
  · exact .panic

omit hs in
theorem Res.Rel.mapRes {α β : Type} {f : α → β} {x : Res S α} {y : Res S' α} (h : Res.Rel Q x y) :
    Res.Rel Q (Config.mapRes f x) (Config.mapRes f y) := by
  cases h with
  | done a h => exact .done _ h
  | panic => exact .panic
  | diverge => exact .diverge

theorem Config.step_same {n : Nat} {x : Call B} {a : App S} {b : App S'} (h : AppSim Q a b) :
    Res.Rel (AppSim Q) (c.step n a x) ((onStore c ops').step n b x) := by
  cases x with
  | info => exact .done _ h
  | commit => exact .done _ h
  | query path =>
    simp only [Config.step, onStore]
    rw [← hs.get h.store]
    rcases c.query (c.ops.get a.store) path with ⟨n, o⟩ | _
    · exact .done _ h
    · exact .panic
  | checkTx tx => exact (Config.checkTx_same hs h).mapRes
  | deliverTx tx => exact (Config.deliverTx_same hs h).mapRes
  | initChain id st => exact (Config.initChain_same hs h).mapRes
  | beginBlock x => exact (Config.beginBlock_same hs h).mapRes
  | endBlock x => exact (Config.endBlock_same hs h).mapRes

theorem Config.steps_same {n : Nat} : ∀ (xs : List (Call B)) {a : App S} {b : App S'}, AppSim Q a b →
    Res.Rel (AppSim Q) (c.steps n a xs) ((onStore c ops').steps n b xs)
  | [], a, b, h => .done _ h
  | x :: xs, a, b, h => by
    simp only [Config.steps]
    rcases (Config.step_same hs (n := n) (x := x) h).cases with ⟨r, a₁, b₁, h1, h2, hq⟩ | ⟨h1, h2⟩ | ⟨h1, h2⟩
    · simp only [h1, h2]
      rcases (Config.steps_same (n := n) xs hq).cases with ⟨r, a₂, b₂, h3, h4, hq2⟩ | ⟨h3, h4⟩ | ⟨h3, h4⟩
      · simp only [h3, h4]; exact .done _ hq2
      · simp only [h3, h4]; exact .panic
      · simp only [h3, h4]; exact .diverge
    · simp only [h1, h2]; exact .panic
    · simp only [h1, h2]; exact .diverge

end

/-! ## The ORM store behaves as the map -/

section
variable [StateObject O]

theorem keysWhere_eq {P : Bytes → Prop} {l : List Bytes}
    (hl : l.Pairwise fun a b => Bytes.lt a b = true) (h : ∀ k, k ∈ l ↔ P k) : keysWhere P = l := by
  have hex : ∃ l : List Bytes, (l.Pairwise fun a b => Bytes.lt a b = true) ∧ ∀ k, k ∈ l ↔ P k :=
    ⟨l, hl, h⟩
  simp only [keysWhere, dif_pos hex]
  have := hex.choose_spec
  exact increasing_ext this.1 hl fun x => by rw [this.2, h]

omit [StateObject O] in
theorem mapGet_view {s : Store O} : s.get = mapGet s.reg (view s) := by
  funext ty id
  simp only [mapGet]
  cases hreg : s.reg.get ty with
  | none => simp [Store.get, hreg]
  | some sch =>
    simp only [view, Store.get, hreg, objGet, saveKeyRaw]
    cases id with
    | nil => simp
    | cons x xs =>
      simp only [List.length_cons, Nat.add_eq_zero_iff, Nat.succ_ne_self, and_false, if_false,
        reduceCtorEq]
      cases s.objects.get (sch.name ++ 47 :: x :: xs) <;> rfl

theorem IndexKey.length_marshal (a b c d : Bytes) : (IndexKey.marshal ⟨a, b, c, d⟩).length =
    25 + a.length + b.length + c.length + d.length := by
  simp only [IndexKey.marshal, lengthPrefixed, List.length_cons, List.length_append, le64_length]
  omega

theorem Inv.listKeys_eq {s : Store O} (hi : Inv s) (ty : Bytes) (opt : ListOptions) :
    s.listKeys ty opt = mapListKeys s.reg (view s) ty opt := by
  simp only [Store.listKeys, mapListKeys]
  cases hreg : s.reg.get ty with
  | none => rfl
  | some sch =>
    simp only [listIndex]
    cases hp : prefixesToScan sch opt with
    | panic => rfl
    | ret q =>
      cases q with
      | error e => rfl
      | ok ks =>
        cases ks with
        | nil => rfl
        | cons p ks =>
          dsimp only
          obtain ⟨i, b, hmem, rfl⟩ := prefixesToScan_mem hp p (by simp)
          have hn := (Registry.get_mem hreg).2
          rw [hn]
          dsimp only
          have hlen := IndexKey.length_marshal ty i.name b []
          rw [List.length_nil, Nat.add_zero] at hlen
          by_cases hl : 25 + ty.length + i.name.length + b.length < maxLen
          · rw [if_pos hl, IndexKey.encode_of (by rw [hlen]; exact hl)]
            have hscan := hi.scan hreg hmem (by rw [hlen]; exact hl)
            have hk : keysWhere (fun pk => ∃ j ∈ sch.indexes, j.name = i.name ∧
                Matches (view s) ty j b pk)
                = (s.index.iteratePrefix (IndexKey.marshal ⟨ty, i.name, b, []⟩)).map (·.1) := by
              refine keysWhere_eq hscan.1 fun k => ?_
              rw [hscan.2]
              constructor
              · rintro ⟨o, h1, h2⟩; exact ⟨i, hmem, rfl, o, h1, h2⟩
              · rintro ⟨j, hj, he, o, h1, h2⟩
                have := inj_of_nodup_map (hi.schemaOk hreg).nodup hj hmem he
                subst this
                exact ⟨o, h1, h2⟩
            rw [hk]
            dsimp only
            cases s.index.iteratePrefix (IndexKey.marshal ⟨ty, i.name, b, []⟩) <;> rfl
          · rw [if_neg hl]
            simp only [IndexKey.encode, hlen, if_neg hl]

/-! When writing panics -/

theorem indexable_iff {sch : Schema} {pk : Bytes} {o : O} : indexable sch pk o = true ↔
    (∀ i ∈ sch.indexes, i.encodeFromObject o = .ret (idxVal i o)) ∧
      ∀ k ∈ ikeys sch o pk, k.length < maxLen := by
  simp only [indexable, List.all_eq_true]
  constructor
  · intro h
    have h1 : ∀ i ∈ sch.indexes, i.encodeFromObject o = .ret (idxVal i o) := by
      intro i hi
      have := h i hi
      cases he : i.encodeFromObject o with
      | panic => simp [he] at this
      | ret v => simp [idxVal, he]
    refine ⟨h1, ?_⟩
    intro k hk
    obtain ⟨i, hi, rfl⟩ := mem_ikeysOf.1 hk
    have := h i hi
    rw [h1 i hi] at this
    rw [IndexKey.length_marshal]
    simpa using this
  · rintro ⟨h1, h2⟩ i hi
    rw [h1 i hi]
    have := h2 _ (mem_ikeysOf.2 ⟨i, hi, rfl⟩)
    rw [IndexKey.length_marshal] at this
    simpa using this

theorem indexLoop_ok {sch : Schema} {o : O} {pk : Bytes} : ∀ (is : List Indexer) (kv : KV Bytes)
    (acc l : List Bytes) (kv' : KV Bytes), indexLoop sch o pk is kv acc = .ret (.ok l, kv') →
    (∀ i ∈ is, i.encodeFromObject o = .ret (idxVal i o)) ∧ ∀ k ∈ ikeysOf sch o pk is, k.length < maxLen
  | [], _, _, _, _, _ => ⟨by simp, by simp [ikeysOf]⟩
  | i :: is, kv, acc, l, kv', h => by
    simp only [indexLoop] at h
    cases he : i.encodeFromObject o with
    | panic => simp [he] at h
    | ret v =>
      have hv : idxVal i o = v := by simp [idxVal, he]
      simp only [he] at h
      cases hk : IndexKey.encode ⟨sch.name, i.name, v, pk⟩ with
      | panic => simp [hk] at h
      | ret key =>
        obtain ⟨rfl, hkl⟩ := IndexKey.encode_eq hk
        simp only [hk] at h
        split at h
        · cases h
        · obtain ⟨h1, h2⟩ := indexLoop_ok is _ _ _ _ h
          refine ⟨?_, ?_⟩
          · intro j hj
            rcases List.mem_cons.1 hj with rfl | hj
            · rw [he, hv]
            · exact h1 j hj
          · intro k hk
            simp only [ikeysOf, List.map_cons, List.mem_cons, hv] at hk
            rcases hk with rfl | hk
            · exact hkl
            · exact h2 k hk

theorem indexObject_ok {sch : Schema} {o : O} {pk : Bytes} {kv kv' : KV Bytes}
    (hpk : sch.encodePrimaryKey o = .ret pk) (h : indexObject kv sch o = .ret (.ok (), kv')) :
    indexable sch pk o = true := by
  rw [indexable_iff]
  by_cases hx : sch.indexes = []
  · simp [hx, ikeys, ikeysOf]
  · have : sch.hasIndexes = true := by simp [Schema.hasIndexes, hx]
    simp only [indexObject, this, hpk, Bool.not_true, Bool.false_eq_true, if_false] at h
    split at h
    · cases h
    · cases h
    · rename_i keys kv₁ hl
      exact indexLoop_ok _ _ _ _ _ hl

/-- The states of the two stores are related when the map is what clients see of the store. -/
structure ViewRel (reg : Registry) (s : Store O) (m : Contents O) : Prop where
  inv : Inv s
  reg : s.reg = reg
  view : view s = m

theorem Inv.create_ok {s s' : Store O} {o : O} (h : s.create o = .ret (.ok (), s')) :
    storable s.reg o = true := by
  unfold Store.create at h
  simp only [storable]
  cases hreg : s.reg.get (oname o) with
  | none => simp [hreg] at h
  | some sch =>
    simp only [hreg, objCreate, saveKey] at h ⊢
    cases hpk : sch.encodePrimaryKey o with
    | panic => simp [hpk] at h
    | ret pk =>
      simp only [hpk] at h ⊢
      cases hk : saveKeyRaw sch pk with
      | error e => simp [hk] at h
      | ok key =>
        simp only [hk] at h
        by_cases hh : s.objects.has key = true
        · simp [hh] at h
        · simp only [hh] at h
          by_cases hmp : StateObject.marshalPanics o = true
          · simp [hmp] at h
          · simp only [hmp] at h
            simp only [hmp, Bool.not_false, Bool.true_and]
            cases hix : indexObject s.index sch o with
            | panic => simp [hix] at h
            | ret q =>
              obtain ⟨r', idx'⟩ := q
              simp [hix] at h
              refine indexObject_ok hpk (kv := s.index) (kv' := idx') ?_
              rw [hix, h.1]

theorem Inv.update_ok {s s' : Store O} {o : O} (h : s.update o = .ret (.ok (), s')) :
    storable s.reg o = true := by
  unfold Store.update at h
  simp only [storable]
  cases hreg : s.reg.get (oname o) with
  | none => simp [hreg] at h
  | some sch =>
    simp only [hreg, objUpdate, saveKey] at h ⊢
    cases hpk : sch.encodePrimaryKey o with
    | panic => simp [hpk] at h
    | ret pk =>
      simp only [hpk] at h ⊢
      cases hk : saveKeyRaw sch pk with
      | error e => simp [hk] at h
      | ok key =>
        simp only [hk] at h
        by_cases hh : s.objects.has key = true
        · simp only [hh] at h
          by_cases hmp : StateObject.marshalPanics o = true
          · simp [hmp] at h
          · simp only [hmp] at h
            simp only [hmp, Bool.not_false, Bool.true_and]
            rcases hc : clearIndexes s.index sch o with ⟨⟨e | ⟨⟩, idx1⟩⟩ | _
            · simp [hc] at h
            · simp only [hc] at h
              cases hix : indexObject idx1 sch o with
              | panic => simp [hix] at h
              | ret q =>
                obtain ⟨r', idx'⟩ := q
                simp [hix] at h
                refine indexObject_ok hpk (kv := idx1) (kv' := idx') ?_
                rw [hix, h.1]
            · simp [hc] at h
        · simp [hh] at h

theorem storable_physical {reg : Registry} {o : O} (h : storable reg o = true) : Physical reg o := by
  intro sch hs pk hp i hi
  simp only [storable, hs, hp, Bool.and_eq_true] at h
  have := List.all_eq_true.1 h.2 i hi
  cases he : i.encodeFromObject o with
  | panic => simp [he] at this
  | ret v => simpa [he] using this

theorem storable_encodable {reg : Registry} {o : O} (h : storable reg o = true) : Encodable reg o := by
  simp only [storable, Bool.and_eq_true, Bool.not_eq_true'] at h
  refine ⟨h.1, ?_, ?_⟩
  · intro sch hs
    have := h.2
    simp only [hs] at this
    cases hp : sch.encodePrimaryKey o with
    | panic => simp [hp] at this
    | ret pk => exact ⟨pk, rfl⟩
  · intro sch hs i hi
    have := h.2
    simp only [hs] at this
    cases hp : sch.encodePrimaryKey o with
    | panic => simp [hp] at this
    | ret pk =>
      simp only [hp] at this
      have := List.all_eq_true.1 this i hi
      cases he : i.encodeFromObject o with
      | panic => simp [he] at this
      | ret v => exact ⟨v, rfl⟩

/-- A returned operation is the one of the map. -/
theorem mapExec_of_step {reg : Registry} {m m' : Contents O} {op : Op O} {r : Except OrmErr Unit}
    (hp : ∀ sch, reg.get (StateObject.api op.obj).name = some sch → ∃ pk, sch.encodePrimaryKey op.obj = .ret pk)
    (h : (r, m') = step reg m op) (hs : r = .ok () → op.writes = true → storable reg op.obj = true) :
    mapExec reg m op = .ret (r, m') := by
  simp only [step, keyOf] at h
  simp only [mapExec]
  cases hreg : reg.get (StateObject.api op.obj).name with
  | none => simp only [hreg] at h; rw [h]
  | some sch =>
    obtain ⟨pk, hpk⟩ := hp sch hreg
    simp only [hreg, hpk] at h ⊢
    rw [← h]
    rcases r with e | ⟨⟩
    · rfl
    · dsimp only
      cases hw : op.writes
      · rfl
      · rw [hs rfl hw]; rfl

theorem mapExec_panic {reg : Registry} {m : Contents O} {op : Op O} {x : Except OrmErr Unit × Contents O}
    (h : mapExec reg m op = .ret x) :
    (∃ sch pk, reg.get (StateObject.api op.obj).name = some sch ∧ sch.encodePrimaryKey op.obj = .ret pk ∧
      (x.1 = .ok () → op.writes = true → storable reg op.obj = true) ∧
      apply m (StateObject.api op.obj).name pk op = x) ∨
    (reg.get (StateObject.api op.obj).name = none ∧ x = (.error .schemaNotFound, m)) := by
  simp only [mapExec] at h
  cases hreg : reg.get (StateObject.api op.obj).name with
  | none => simp only [hreg, Out.ret.injEq] at h; exact .inr ⟨rfl, h.symm⟩
  | some sch =>
    simp only [hreg] at h
    cases hpk : sch.encodePrimaryKey op.obj with
    | panic => simp [hpk] at h
    | ret pk =>
      simp only [hpk] at h
      refine .inl ⟨sch, pk, rfl, hpk, ?_⟩
      rcases ha : apply m (StateObject.api op.obj).name pk op with ⟨e | ⟨⟩, m'⟩
      · simp only [ha, Out.ret.injEq] at h
        subst h
        exact ⟨fun h => (by cases h), rfl⟩
      · simp only [ha] at h
        split at h
        · cases h
        · rename_i hc
          simp only [Out.ret.injEq] at h
          subst h
          refine ⟨fun _ hw => ?_, rfl⟩
          simpa [hw] using hc

theorem storeSim_orm (reg : Registry) :
    StoreSim (ormOps O) (mapOps reg) (ViewRel reg) where
  get := by
    rintro s m ⟨hi, rfl, rfl⟩
    exact mapGet_view
  list := by
    rintro s m ⟨hi, rfl, rfl⟩ ty opt
    simp only [ormOps, Store.list, mapOps, hi.listKeys_eq, mapGet_view]
    rcases mapListKeys s.reg (view s) ty opt with ⟨e | ks⟩ | _ <;> rfl
  create := by
    rintro s m ⟨hi, rfl, rfl⟩ o
    simp only [ormOps, mapOps]
    cases h : s.create o with
    | ret x =>
      obtain ⟨r, s'⟩ := x
      obtain ⟨h1, h2, h3, _⟩ := hi.create_spec h
      rw [mapExec_of_step (op := .create o) ?_ h3 (fun hr _ => Inv.create_ok (hr ▸ h))]
      · exact .ret _ ⟨h1, h2, rfl⟩
      · intro sch hs
        simp only [Op.obj] at hs ⊢
        simp only [Store.create, hs, objCreate, saveKey] at h
        cases hp : sch.encodePrimaryKey o with
        | panic => simp [hp] at h
        | ret pk => exact ⟨pk, rfl⟩
    | panic =>
      cases hm : mapExec s.reg (view s) (.create o) with
      | panic => exact .panic
      | ret x =>
        exfalso
        rcases mapExec_panic hm with ⟨sch, pk, hreg, hpk, hst, ha⟩ | ⟨hreg, _⟩
        · simp only [Op.obj, Op.writes, forall_const] at hreg hpk hst ha
          by_cases hok : x.1 = .ok ()
          · obtain ⟨r, s', hc⟩ := Inv.create_total (s := s) (storable_physical (hst hok)) (storable_encodable (hst hok))
            rw [h] at hc; cases hc
          · simp only [Store.create, hreg, objCreate, saveKey, hpk] at h
            subst ha
            simp only [apply] at hok
            simp only [saveKeyRaw] at h
            by_cases hz : pk = []
            · simp [hz] at h
            · simp only [hz, if_false] at hok
              have hz' : ¬ pk.length = 0 := by simpa using hz
              simp only [hz', if_false] at h
              have hv := view_eq hreg pk
              have hn := (Registry.get_mem hreg).2
              rw [if_neg hz, ← hn] at hv
              rw [← hn, hv] at hok
              by_cases hh : (s.objects.get (sch.name ++ 47 :: pk)).isSome = true
              · simp [KV.has, hh] at h
              · simp [hh] at hok
        · simp only [Op.obj] at hreg
          simp [Store.create, hreg] at h
  update := by
    rintro s m ⟨hi, rfl, rfl⟩ o
    simp only [ormOps, mapOps]
    cases h : s.update o with
    | ret x =>
      obtain ⟨r, s'⟩ := x
      obtain ⟨h1, h2, h3, _⟩ := hi.update_spec h
      rw [mapExec_of_step (op := .update o) ?_ h3 (fun hr _ => Inv.update_ok (hr ▸ h))]
      · exact .ret _ ⟨h1, h2, rfl⟩
      · intro sch hs
        simp only [Op.obj] at hs ⊢
        simp only [Store.update, hs, objUpdate, saveKey] at h
        cases hp : sch.encodePrimaryKey o with
        | panic => simp [hp] at h
        | ret pk => exact ⟨pk, rfl⟩
    | panic =>
      cases hm : mapExec s.reg (view s) (.update o) with
      | panic => exact .panic
      | ret x =>
        exfalso
        rcases mapExec_panic hm with ⟨sch, pk, hreg, hpk, hst, ha⟩ | ⟨hreg, _⟩
        · simp only [Op.obj, Op.writes, forall_const] at hreg hpk hst ha
          by_cases hok : x.1 = .ok ()
          · obtain ⟨r, s', hc⟩ := hi.update_total (storable_physical (hst hok)) (storable_encodable (hst hok))
            rw [h] at hc; cases hc
          · simp only [Store.update, hreg, objUpdate, saveKey, hpk] at h
            subst ha
            simp only [apply] at hok
            simp only [saveKeyRaw] at h
            by_cases hz : pk = []
            · simp [hz] at h
            · simp only [hz, if_false] at hok
              have hz' : ¬ pk.length = 0 := by simpa using hz
              simp only [hz', if_false] at h
              have hv := view_eq hreg pk
              have hn := (Registry.get_mem hreg).2
              rw [if_neg hz, ← hn] at hv
              rw [← hn, hv] at hok
              by_cases hh : (s.objects.get (sch.name ++ 47 :: pk)).isSome = true
              · simp [hh] at hok
              · simp [KV.has, hh] at h
        · simp only [Op.obj] at hreg
          simp [Store.update, hreg] at h
  delete := by
    rintro s m ⟨hi, rfl, rfl⟩ o
    simp only [ormOps, mapOps]
    cases h : s.delete o with
    | ret x =>
      obtain ⟨r, s'⟩ := x
      obtain ⟨h1, h2, h3, _⟩ := hi.delete_spec h
      rw [mapExec_of_step (op := .delete o) ?_ h3 (fun _ hw => by cases hw)]
      · exact .ret _ ⟨h1, h2, rfl⟩
      · intro sch hs
        simp only [Op.obj] at hs ⊢
        simp only [Store.delete, hs, objDelete, saveKey] at h
        cases hp : sch.encodePrimaryKey o with
        | panic => simp [hp] at h
        | ret pk => exact ⟨pk, rfl⟩
    | panic =>
      cases hm : mapExec s.reg (view s) (.delete o) with
      | panic => exact .panic
      | ret x =>
        exfalso
        rcases mapExec_panic hm with ⟨sch, pk, hreg, hpk, hst, ha⟩ | ⟨hreg, _⟩
        · simp only [Op.obj] at hreg hpk
          obtain ⟨r, s', hc⟩ := hi.delete_total (o := o) (by
            intro sch' h'
            have : some sch = some sch' := hreg.symm.trans h'
            cases this
            exact ⟨pk, hpk⟩)
          rw [h] at hc; cases hc
        · simp only [Op.obj] at hreg
          simp [Store.delete, hreg] at h

end
end Verif
