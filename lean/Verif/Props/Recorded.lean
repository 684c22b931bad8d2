import Verif.Spec.Recorded
import Verif.Props.Chain
/-!
# What the abci module records: C91
-/

namespace Verif.Props
open Verif Spec

variable {lib : Libs} {m m' : World}

theorem serve_records (hi : AppInv m) {call : Call BlockReq} {r : Resp Obj} (h : Serve lib m call r m')
    {x : Recorded} (hx : Records m x) : Records m' (x.next call) := by
  cases h with
  | executed bytes tx r h1 h2 _ h =>
    have e : ∀ {ty : Bytes}, ty ∉ userTypes → m' ty = m ty := fun ht => tx_rest hi h ht
    exact ⟨by rw [e (by decide)]; exact hx.stage, by rw [e (by decide)]; exact hx.chainId,
      by rw [e (by decide)]; exact hx.beginBlock, by rw [e (by decide)]; exact hx.height,
      by rw [e (by decide)]; exact hx.endBlock, by rw [e (by decide)]; exact hx.checkTx,
      by rw [e (by decide)]; exact hx.deliverTx⟩
  | beginBlock b =>
    constructor <;> unfold doBeginBlock
    · rw [put_ne (by decide), put_ne (by decide)]
      exact (put_same ..).trans (if_pos rfl)
    · rw [put_ne (by decide), put_ne (by decide), put_ne (by decide)]; exact hx.chainId
    · rw [put_ne (by decide)]
      exact (put_same ..).trans (if_pos rfl)
    · exact (put_same ..).trans (if_pos rfl)
    · rw [put_ne (by decide), put_ne (by decide), put_ne (by decide)]; exact hx.endBlock
    · rw [put_ne (by decide), put_ne (by decide), put_ne (by decide)]; exact hx.checkTx
    · rw [put_ne (by decide), put_ne (by decide), put_ne (by decide)]; exact hx.deliverTx
  | endBlock h =>
    constructor <;> unfold doEndBlock
    · rw [put_ne (by decide)]
      exact (put_same ..).trans (if_pos rfl)
    · rw [put_ne (by decide), put_ne (by decide)]; exact hx.chainId
    · rw [put_ne (by decide), put_ne (by decide)]; exact hx.beginBlock
    · rw [put_ne (by decide), put_ne (by decide)]; exact hx.height
    · exact (put_same ..).trans (if_pos rfl)
    · rw [put_ne (by decide), put_ne (by decide)]; exact hx.checkTx
    · rw [put_ne (by decide), put_ne (by decide)]; exact hx.deliverTx
  | _ => exact hx

theorem genesis_records (c : Bytes) : Records (genesisWorld lib c) (.start c) :=
  ⟨rfl, rfl, rfl, rfl, rfl, rfl, rfl⟩

/-- **C91 (partial)** In every state reached, the objects of the abci module are those of the requests
served: stage, chain id, the last BeginBlock and EndBlock.  Missing: CheckTx and DeliverTx, which
are not recorded (`C91_fails`). -/
theorem C91_recorded_partial (hw : DecodesWell lib) {pre post : List (Call BlockReq)} {c : Bytes} {rs : List (Resp Obj)}
    (hp : ¬ Starts pre) (h : Served lib (pre ++ .initChain c [] :: post) rs m) :
    Records m (post.foldl Recorded.next (.start c)) := by
  rcases served_run hw h with ⟨_, hn⟩ | ⟨pre', rs₀, c', post', rs', he, hq, hl, hs, hc, hr⟩
  · exact absurd ⟨c, [], by simp⟩ hn
  · have hh : pre = pre' ∧ c = c' ∧ post = post' := by
      clear hr h hq hl
      induction pre generalizing pre' with
      | nil =>
        cases pre' with
        | nil => simpa using he
        | cons x pre' =>
          simp only [List.nil_append, List.cons_append, List.cons.injEq] at he
          exact absurd ⟨c, [], by simp [← he.1]⟩ hs
      | cons y pre ih =>
        cases pre' with
        | nil =>
          simp only [List.nil_append, List.cons_append, List.cons.injEq] at he
          exact absurd ⟨c', [], by simp [he.1]⟩ hp
        | cons x pre' =>
          simp only [List.cons_append, List.cons.injEq] at he
          have h1 : ¬ Starts pre := fun ⟨c, st, h⟩ => hp ⟨c, st, List.mem_cons_of_mem _ h⟩
          have h2 : ¬ Starts pre' := fun ⟨c, st, h⟩ => hs ⟨c, st, List.mem_cons_of_mem _ h⟩
          obtain ⟨e1, e2, e3⟩ := ih h1 pre' he.2 h2
          exact ⟨by rw [he.1, e1], e2, e3⟩
    obtain ⟨rfl, rfl, rfl⟩ := hh
    have hi := genesis_inv (lib := lib) hc
    have hg := genesis_records (lib := lib) c
    clear h he hq hl hp hs
    revert hi hg hr
    generalize genesisWorld lib c = w
    generalize Recorded.start c = x
    intro hr hi hg
    induction post generalizing w x rs' with
    | nil => cases hr; exact hg
    | cons call post ih =>
      cases hr with
      | cons h1 h2 => rw [List.foldl_cons]; exact ih _ _ _ h2 (serve_inv hi h1) (serve_records hi h1 hg)

/-- **C91 is false**: after no history, whatever transactions were checked and delivered, is one of
them recorded; the stage is that of the last BeginBlock, EndBlock or InitChain. -/
theorem C91_fails (hw : DecodesWell lib) {calls : List (Call BlockReq)} {rs : List (Resp Obj)}
    (h : Served lib calls rs m) (hs : Starts calls) :
    ∃ r, Records m r ∧ r.checkTx = none ∧ r.deliverTx = none ∧ r.stage ≠ .checkTx ∧ r.stage ≠ .reCheckTx ∧
      r.stage ≠ .deliverTx := by
  rcases served_run hw h with ⟨_, hn⟩ | ⟨pre, rs₀, c, post, rs', rfl, _, _, hp, _, hr⟩
  · exact absurd hs hn
  · refine ⟨_, C91_recorded_partial hw hp h, ?_⟩
    suffices hx : ∀ (x : Recorded), (x.checkTx = none ∧ x.deliverTx = none ∧ x.stage ≠ .checkTx ∧ x.stage ≠ .reCheckTx ∧
        x.stage ≠ .deliverTx) → ((post.foldl Recorded.next x).checkTx = none ∧
        (post.foldl Recorded.next x).deliverTx = none ∧ (post.foldl Recorded.next x).stage ≠ .checkTx ∧
        (post.foldl Recorded.next x).stage ≠ .reCheckTx ∧ (post.foldl Recorded.next x).stage ≠ .deliverTx) by
      exact hx _ ⟨rfl, rfl, by simp [Recorded.start], by simp [Recorded.start], by simp [Recorded.start]⟩
    clear h hs hr
    intro x hx
    induction post generalizing x with
    | nil => exact hx
    | cons call post ih =>
      rw [List.foldl_cons]
      refine ih (x := x.next call) ?_
      cases call <;> simp_all [Recorded.next]

/-- Non-vacuity: a payment was delivered; it should be recorded, but the stage is BeginBlock. -/
example : ∃ m, Served payLib payCalls [.none, .none, .code 0] m ∧ Starts payCalls ∧
    (∃ r, Records m r ∧ r.stage = .beginBlock ∧ r.height = 7) ∧
    ([Call.beginBlock ⟨7, b!"main", []⟩, .deliverTx b!"1"].foldl Recorded.nextAll (.start sampleChain)).stage =
      .deliverTx := by
  obtain ⟨m, h, _⟩ := leadsTo_served (calls := [.beginBlock ⟨7, b!"main", []⟩, .deliverTx b!"1"]) (rs := [.none, .code 0])
    (P := fun _ => true) payLib_well (by decide +kernel)
  refine ⟨m, h, ⟨sampleChain, [], by simp [payCalls]⟩, ?_, rfl⟩
  have hn : ¬ Starts [] := by rintro ⟨_, _, h⟩; cases h
  exact ⟨_, C91_recorded_partial (pre := []) payLib_well hn h, rfl, rfl⟩

/-- **C91** The handlers for CheckTx and DeliverTx, which are never called, do record them: on any
started chain, delivered by the runtime with their transition, they set stage and request and leave
everything else alone. -/
theorem C91_handlers {r r' : Recorded} (hi : AppInv m) (hr : Records m r) {t : Tr} (ht : recordTr r t = some r')
    (n : Nat) (skip : Bool) :
    ∃ m', (mapApp lib).deliver (n + 1) true skip [userABCI] t m = .done (.ok ()) m' ∧ Records m' r' ∧
      ∀ ty, ty ≠ tyStage → ty ≠ (Obj.api (.checkTxState none)).name →
        ty ≠ (Obj.api (.deliverTxState none)).name → m' ty = m ty := by
  have hput : ∀ (st : Stage) (c : Option CheckReq), ∃ m', m' = (m.put tyStage singletonID (some (.stage st))).put
      (Obj.api (.checkTxState none)).name singletonID (some (.checkTxState c)) ∧
      Records m' { r with stage := st, checkTx := c } ∧
      ∀ ty, ty ≠ tyStage → ty ≠ (Obj.api (.checkTxState none)).name →
        ty ≠ (Obj.api (.deliverTxState none)).name → m' ty = m ty := by
    intro st c
    refine ⟨_, rfl, ⟨?_, ?_, ?_, ?_, ?_, ?_, ?_⟩, ?_⟩
    · rw [put_ne (by decide)]; exact (put_same ..).trans (if_pos rfl)
    · rw [put_ne (by decide), put_ne (by decide)]; exact hr.chainId
    · rw [put_ne (by decide), put_ne (by decide)]; exact hr.beginBlock
    · rw [put_ne (by decide), put_ne (by decide)]; exact hr.height
    · rw [put_ne (by decide), put_ne (by decide)]; exact hr.endBlock
    · exact (put_same ..).trans (if_pos rfl)
    · rw [put_ne (by decide), put_ne (by decide)]; exact hr.deliverTx
    · intro ty h1 h2 _; rw [put_ne h2, put_ne h1]
  have hrun : ∀ (st : Stage) (c : Option CheckReq),
      (Prog.update (Obj.stage st) (Prog.orReturn (.update (.checkTxState c) .ret)) : Code).run (asys lib)
        (adeliver lib n false) [userABCI] m = .done (.ok ()) ((m.put tyStage singletonID (some (.stage st))).put
      (Obj.api (.checkTxState none)).name singletonID (some (.checkTxState c))) := by
    intro st c
    refine (run_updateABCI (lib := lib) hi (o := .stage st) (of_decide_eq_true rfl) rfl
      (isSome_of ⟨_, hr.stage⟩) rfl _).trans ?_
    refine run_updateABCI (lib := lib) (hi.putStage st) (o := .checkTxState c) (of_decide_eq_true rfl) rfl ?_ rfl _
    have hne : (m.put tyStage singletonID (some (.stage st))) (Obj.api (.checkTxState c)).name =
        m (Obj.api (.checkTxState c)).name := put_ne (ty := tyStage) (t := (Obj.api (.checkTxState none)).name) (by decide) ..
    rw [hne]
    exact isSome_of ⟨_, hr.checkTx⟩
  cases t with
  | setCheckTx c =>
    cases c with
    | none => cases ht
    | some c =>
      cases hc : c.type with
      | unrecognized => simp [recordTr, hc] at ht
      | new =>
        simp only [recordTr, hc, Option.some.injEq] at ht
        subst ht
        obtain ⟨m', rfl, h2⟩ := hput .checkTx (some c)
        refine ⟨_, ?_, h2⟩
        refine (deliver_exec (router := appRouter lib) (t := .setCheckTx (some c))
          (h := ⟨userABCI, setCheckTxExec⟩) rfl rfl rfl rfl (auth_abci hi (of_decide_eq_true rfl))).trans ?_
        simp only [setCheckTxExec, hc]
        exact hrun _ _
      | recheck =>
        simp only [recordTr, hc, Option.some.injEq] at ht
        subst ht
        obtain ⟨m', rfl, h2⟩ := hput .reCheckTx (some c)
        refine ⟨_, ?_, h2⟩
        refine (deliver_exec (router := appRouter lib) (t := .setCheckTx (some c))
          (h := ⟨userABCI, setCheckTxExec⟩) rfl rfl rfl rfl (auth_abci hi (of_decide_eq_true rfl))).trans ?_
        simp only [setCheckTxExec, hc]
        exact hrun _ _
  | setDeliverTx tx =>
    simp only [recordTr, Option.some.injEq] at ht
    subst ht
    refine ⟨(m.put tyStage singletonID (some (.stage .deliverTx))).put
      (Obj.api (.deliverTxState none)).name singletonID (some (.deliverTxState tx)), ?_, ⟨?_, ?_, ?_, ?_, ?_, ?_, ?_⟩, ?_⟩
    · refine (deliver_exec (router := appRouter lib) (t := .setDeliverTx tx)
        (h := ⟨userABCI, setDeliverTxExec⟩) rfl rfl rfl rfl (auth_abci hi (of_decide_eq_true rfl))).trans ?_
      refine (run_updateABCI (lib := lib) hi (o := .stage .deliverTx) (of_decide_eq_true rfl) rfl
        (isSome_of ⟨_, hr.stage⟩) rfl _).trans ?_
      refine run_updateABCI (lib := lib) (hi.putStage .deliverTx) (o := .deliverTxState tx) (of_decide_eq_true rfl) rfl ?_ rfl _
      have hne : (m.put tyStage singletonID (some (.stage .deliverTx))) (Obj.api (.deliverTxState tx)).name =
          m (Obj.api (.deliverTxState tx)).name := put_ne (ty := tyStage) (t := (Obj.api (.deliverTxState none)).name) (by decide) ..
      rw [hne]
      exact isSome_of ⟨_, hr.deliverTx⟩
    · rw [put_ne (by decide)]; exact (put_same ..).trans (if_pos rfl)
    · rw [put_ne (by decide), put_ne (by decide)]; exact hr.chainId
    · rw [put_ne (by decide), put_ne (by decide)]; exact hr.beginBlock
    · rw [put_ne (by decide), put_ne (by decide)]; exact hr.height
    · rw [put_ne (by decide), put_ne (by decide)]; exact hr.endBlock
    · rw [put_ne (by decide), put_ne (by decide)]; exact hr.checkTx
    · exact (put_same ..).trans (if_pos rfl)
    · intro ty h1 _ h3; rw [put_ne h3, put_ne h1]
  | _ => cases ht

end Verif.Props
