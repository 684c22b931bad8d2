import Verif.Spec.OpenApi
import Mathlib.Data.Nat.Find
/-!
# Lemmas about the OpenAPI document
-/

namespace Verif

open Spec

variable {env : DocEnv} {ord : MapOrder}

theorem mem_nested {d : MsgDesc} {n : Bytes} :
    n ∈ d.nested ↔ ∃ f ∈ d.fields, (f.kind = .message ∨ f.kind = .group) ∧ f.msg = n := by
  simp [MsgDesc.nested, and_assoc]

theorem mentions_iff {m m' : MsgOf} : Mentions env m m' ↔ ∃ n ∈ m.desc.nested, m' = env n := by
  constructor
  · rintro ⟨f, hf, hk, rfl⟩
    exact ⟨f.msg, mem_nested.2 ⟨f, hf, hk, rfl⟩, rfl⟩
  · rintro ⟨n, hn, rfl⟩
    obtain ⟨f, hf, hk, rfl⟩ := mem_nested.1 hn
    exact ⟨f, hf, hk, rfl⟩

theorem nested_nil_iff {m : MsgOf} : m.desc.nested = [] ↔ Flat m := by
  rw [List.eq_nil_iff_forall_not_mem]
  constructor
  · intro h f hf
    refine ⟨fun hk => h f.msg (mem_nested.2 ⟨f, hf, Or.inl hk, rfl⟩),
      fun hk => h f.msg (mem_nested.2 ⟨f, hf, Or.inr hk, rfl⟩)⟩
  · intro h n hn
    obtain ⟨f, hf, hk, _⟩ := mem_nested.1 hn
    rcases hk with hk | hk
    · exact (h f hf).1 hk
    · exact (h f hf).2 hk

/-! ## Fuel -/

theorem requireNested_mono {rec rec' : Gen → MsgOf → Option Gen} {self : Bytes}
    (h : ∀ g m g', rec g m = some g' → rec' g m = some g') :
    ∀ (l : List Bytes) (g g' : Gen), requireNested rec env self g l = some g' →
      requireNested rec' env self g l = some g'
  | [], _, _, e => e
  | n :: ns, g, g', e => by
    unfold requireNested at e ⊢
    cases hr : rec g (env n) with
    | none => rw [hr] at e; cases e
    | some g1 =>
      rw [hr] at e
      rw [h _ _ _ hr]
      exact requireNested_mono h ns _ _ e

theorem addRequired_succ : ∀ (fuel : Nat) (g : Gen) (m : MsgOf) (g' : Gen),
    addRequired env ord fuel g m = some g' → addRequired env ord (fuel + 1) g m = some g'
  | 0, _, _, _, e => by cases e
  | fuel + 1, g, m, g', e => by
    rw [addRequired] at e ⊢
    split at e
    · rename_i hm; rw [if_pos hm]; exact e
    · rename_i hm
      rw [if_neg hm]
      cases hr : requireNested (addRequired env ord fuel) env m.desc.fullName
          { g with iterations := g.iterations + 1 } (ord g.iterations m.desc.nested) with
      | none => rw [hr] at e; cases e
      | some g1 =>
        rw [hr] at e
        rw [requireNested_mono (fun g m g' => addRequired_succ fuel g m g') _ _ _ hr]
        exact e

theorem addRequired_mono {fuel fuel' : Nat} (h : fuel ≤ fuel') {g g' : Gen} {m : MsgOf}
    (e : addRequired env ord fuel g m = some g') : addRequired env ord fuel' g m = some g' := by
  induction h with
  | refl => exact e
  | step _ ih => exact addRequired_succ _ _ _ _ ih

/-! ## Termination -/

/-- If each of the messages is finished with some fuel from any generator, so is the loop. -/
theorem requireNested_terminates {self : Bytes} :
    ∀ (l : List Bytes) (g : Gen), (∀ n ∈ l, ∀ g, ∃ fuel g', addRequired env ord fuel g (env n) = some g') →
      ∃ fuel g', requireNested (addRequired env ord fuel) env self g l = some g'
  | [], g, _ => ⟨0, g, rfl⟩
  | n :: ns, g, h => by
    obtain ⟨f1, g1, h1⟩ := h n List.mem_cons_self g
    obtain ⟨f2, g2, h2⟩ := requireNested_terminates (self := self) ns { g1 with marked := self :: g1.marked }
      fun k hk => h k (List.mem_cons_of_mem _ hk)
    refine ⟨max f1 f2, g2, ?_⟩
    unfold requireNested
    rw [addRequired_mono (Nat.le_max_left f1 f2) h1]
    exact requireNested_mono (fun _ _ _ e => addRequired_mono (Nat.le_max_right f1 f2) e) _ _ _ h2

theorem addRequired_of_acc (ho : IsOrder ord) {m : MsgOf} (h : Acc (fun a b => Mentions env b a) m) :
    ∀ g, ∃ fuel g', addRequired env ord fuel g m = some g' := by
  induction h with
  | intro m _ ih =>
    intro g
    by_cases hm : m.desc.fullName ∈ g.marked
    · exact ⟨1, g, by rw [addRequired, if_pos hm]⟩
    · obtain ⟨f, g', h'⟩ := requireNested_terminates (env := env) (ord := ord) (self := m.desc.fullName)
        (ord g.iterations m.desc.nested) { g with iterations := g.iterations + 1 } (by
          intro n hn g
          exact ih (env n) (mentions_iff.2 ⟨n, (ho _ _).mem_iff.1 hn, rfl⟩) g)
      exact ⟨f + 1, _, by rw [addRequired, if_neg hm, h']⟩

theorem acc_of_not_endless {m : MsgOf} (h : ¬ Endless env m) : Acc (fun a b => Mentions env b a) m := by
  by_contra hacc
  have step : ∀ x : {x : MsgOf // ¬ Acc (fun a b => Mentions env b a) x},
      ∃ y : {x : MsgOf // ¬ Acc (fun a b => Mentions env b a) x}, Mentions env x.1 y.1 := by
    rintro ⟨x, hx⟩
    by_contra hno
    apply hx
    constructor
    intro y hy
    by_contra hy'
    exact hno ⟨⟨y, hy'⟩, hy⟩
  choose next hnext using step
  let c : Nat → {x : MsgOf // ¬ Acc (fun a b => Mentions env b a) x} :=
    fun n => Nat.rec ⟨m, hacc⟩ (fun _ x => next x) n
  exact h ⟨fun n => (c n).1, rfl, fun i => hnext (c i)⟩

/-- The order that follows the chain. -/
def chase (c : Nat → MsgOf) : MapOrder := fun i l =>
  if (c (i + 1)).desc.fullName ∈ l then
    (c (i + 1)).desc.fullName :: l.erase (c (i + 1)).desc.fullName
  else l

theorem isOrder_chase (c : Nat → MsgOf) : IsOrder (chase c) := by
  intro n l
  unfold chase
  split
  · rename_i h; exact (List.perm_cons_erase h).symm
  · exact List.Perm.refl _

theorem chase_diverges (hn : NamesKnown env) {c : Nat → MsgOf} (hc : ∀ i, Mentions env (c i) (c (i + 1))) :
    ∀ (fuel i : Nat) (g : Gen), g.iterations = i → g.marked = [] →
      addRequired env (chase c) fuel g (c i) = none
  | 0, _, _, _, _ => rfl
  | fuel + 1, i, g, hi, hm => by
    rw [addRequired, if_neg (by rw [hm]; simp)]
    obtain ⟨n, hmem, he⟩ := mentions_iff.1 (hc i)
    have hname : (c (i + 1)).desc.fullName = n := by rw [he, hn]
    have hord : chase c g.iterations (c i).desc.nested = n :: ((c i).desc.nested.erase n) := by
      unfold chase
      rw [hi, hname, if_pos hmem]
    rw [hord, requireNested, ← he,
      chase_diverges hn hc fuel (i + 1) { g with iterations := g.iterations + 1 } (by rw [← hi]) hm]

/-! ## What is required -/

/-- What the loop of a call for `m` does to the generator; `own` is marked on the way. -/
structure GrowsWith (env : DocEnv) (m : MsgOf) (own : List Bytes) (g g' : Gen) (l : List MsgOf) : Prop where
  marked : ∀ n ∈ g.marked, n ∈ g'.marked
  ops : g'.ops = g.ops
  objects : g'.objects = g.objects ++ l
  schemas : g'.schemas = g.schemas ++ l.map MsgOf.typeName
  reached : ∀ x ∈ l, Reaches env m x
  named : ∀ x ∈ l, x.desc.fullName ∈ g'.marked
  closed : ∀ x ∈ l, ∀ n ∈ x.desc.nested, n ∈ g'.marked
  new : ∀ n ∈ g'.marked, n ∈ g.marked ∨ n ∈ own ∨ ∃ x ∈ l, x.desc.fullName = n

theorem requireNested_grows (hn : NamesKnown env) {fuel : Nat} {m : MsgOf}
    (ih : ∀ g x g', addRequired env ord fuel g x = some g' →
      x.desc.fullName ∈ g'.marked ∧ ∃ l, GrowsWith env x [] g g' l) :
    ∀ (ns : List Bytes) (g g' : Gen), (∀ n ∈ ns, n ∈ m.desc.nested) →
      requireNested (addRequired env ord fuel) env m.desc.fullName g ns = some g' →
      (∀ n ∈ ns, n ∈ g'.marked) ∧ ∃ l, GrowsWith env m [m.desc.fullName] g g' l
  | [], g, g', _, e => by
    rw [requireNested] at e
    obtain rfl := Option.some.inj e
    exact ⟨by simp, [], ⟨fun _ h => h, rfl, by simp, by simp, by simp, by simp, by simp,
      fun n h => Or.inl h⟩⟩
  | n :: ns, g, g', hns, e => by
    rw [requireNested] at e
    cases hr : addRequired env ord fuel g (env n) with
    | none => rw [hr] at e; cases e
    | some g1 =>
      rw [hr] at e
      obtain ⟨hm1, l1, h1⟩ := ih _ _ _ hr
      obtain ⟨hm2, l2, h2⟩ := requireNested_grows hn ih ns _ _ (fun k hk => hns k (List.mem_cons_of_mem _ hk)) e
      have hmono : ∀ k ∈ g1.marked, k ∈ g'.marked := fun k hk => h2.marked k (List.mem_cons_of_mem _ hk)
      have hmen : Mentions env m (env n) := mentions_iff.2 ⟨n, hns n List.mem_cons_self, rfl⟩
      refine ⟨?_, l1 ++ l2, ⟨fun k hk => hmono k (h1.marked k hk), ?_, ?_, ?_, ?_, ?_, ?_, ?_⟩⟩
      · intro k hk
        rcases List.mem_cons.1 hk with rfl | hk
        · rw [hn] at hm1; exact hmono _ hm1
        · exact hm2 k hk
      · rw [h2.ops]; exact h1.ops
      · rw [h2.objects]; show g1.objects ++ l2 = _; rw [h1.objects, List.append_assoc]
      · rw [h2.schemas]; show g1.schemas ++ _ = _; rw [h1.schemas, List.map_append, List.append_assoc]
      · intro x hx
        rcases List.mem_append.1 hx with hx | hx
        · exact Relation.ReflTransGen.head hmen (h1.reached x hx)
        · exact h2.reached x hx
      · intro x hx
        rcases List.mem_append.1 hx with hx | hx
        · exact hmono _ (h1.named x hx)
        · exact h2.named x hx
      · intro x hx k hk
        rcases List.mem_append.1 hx with hx | hx
        · exact hmono _ (h1.closed x hx k hk)
        · exact h2.closed x hx k hk
      · intro k hk
        rcases h2.new k hk with h | h | ⟨x, hx, rfl⟩
        · rcases List.mem_cons.1 h with rfl | h
          · exact Or.inr (Or.inl List.mem_cons_self)
          · rcases h1.new k h with h | h | ⟨x, hx, rfl⟩
            · exact Or.inl h
            · cases h
            · exact Or.inr (Or.inr ⟨x, List.mem_append_left _ hx, rfl⟩)
        · exact Or.inr (Or.inl h)
        · exact Or.inr (Or.inr ⟨x, List.mem_append_right _ hx, rfl⟩)

/-- What a call does to the generator. -/
theorem addRequired_grows (hn : NamesKnown env) (ho : IsOrder ord) : ∀ (fuel : Nat) (g : Gen) (m : MsgOf) (g' : Gen),
    addRequired env ord fuel g m = some g' →
    m.desc.fullName ∈ g'.marked ∧ ∃ l, GrowsWith env m [] g g' l
  | 0, _, _, _, e => by cases e
  | fuel + 1, g, m, g', e => by
    rw [addRequired] at e
    split at e
    · rename_i hm
      obtain rfl := Option.some.inj e
      exact ⟨hm, [], ⟨fun _ h => h, rfl, by simp, by simp, by simp, by simp, by simp, fun n h => Or.inl h⟩⟩
    · rename_i hm
      cases hr : requireNested (addRequired env ord fuel) env m.desc.fullName
          { g with iterations := g.iterations + 1 } (ord g.iterations m.desc.nested) with
      | none => rw [hr] at e; cases e
      | some g1 =>
        rw [hr] at e
        obtain rfl := Option.some.inj e
        obtain ⟨hns, l, h⟩ := requireNested_grows hn (addRequired_grows hn ho fuel) _ _ _
          (fun k hk => (ho _ _).mem_iff.1 hk) hr
        refine ⟨List.mem_cons_self, l ++ [m], ⟨fun k hk => List.mem_cons_of_mem _ (h.marked k hk), h.ops, ?_, ?_, ?_, ?_, ?_, ?_⟩⟩
        · show g1.objects ++ [m] = _
          rw [h.objects, List.append_assoc]
        · show g1.schemas ++ [m.typeName] = _
          rw [h.schemas, List.map_append, List.append_assoc]; rfl
        · intro x hx
          rcases List.mem_append.1 hx with hx | hx
          · exact h.reached x hx
          · rw [List.mem_singleton.1 hx]; exact Relation.ReflTransGen.refl
        · intro x hx
          rcases List.mem_append.1 hx with hx | hx
          · exact List.mem_cons_of_mem _ (h.named x hx)
          · rw [List.mem_singleton.1 hx]; exact List.mem_cons_self
        · intro x hx k hk
          rcases List.mem_append.1 hx with hx | hx
          · exact List.mem_cons_of_mem _ (h.closed x hx k hk)
          · rw [List.mem_singleton.1 hx] at hk
            exact List.mem_cons_of_mem _ (hns k ((ho _ _).mem_iff.2 hk))
        · intro k hk
          rcases List.mem_cons.1 hk with rfl | hk
          · exact Or.inr (Or.inr ⟨m, by simp, rfl⟩)
          · rcases h.new k hk with h | h | ⟨x, hx, rfl⟩
            · exact Or.inl h
            · exact Or.inr (Or.inr ⟨m, by simp, (List.mem_singleton.1 h).symm⟩)
            · exact Or.inr (Or.inr ⟨x, List.mem_append_left _ hx, rfl⟩)

/-! ## No order is of help to messages that contain no flat message -/

theorem stuck_diverges (hn : NamesKnown env) (ho : IsOrder ord) : ∀ (fuel : Nat) (g : Gen) (m : MsgOf),
    (∀ x, Reaches env m x → ¬ Flat x) →
    (∀ x, Reaches env m x → x.desc.fullName ∉ g.marked) → addRequired env ord fuel g m = none
  | 0, _, _, _, _ => rfl
  | fuel + 1, g, m, hs, hg => by
    rw [addRequired, if_neg (hg m Relation.ReflTransGen.refl)]
    have hne : ord g.iterations m.desc.nested ≠ [] := by
      intro h
      have := (ho g.iterations m.desc.nested).length_eq
      rw [h] at this
      exact hs m Relation.ReflTransGen.refl (nested_nil_iff.1 (List.length_eq_zero_iff.1 this.symm))
    obtain ⟨n, ns, he⟩ := List.exists_cons_of_ne_nil hne
    have hmem : n ∈ m.desc.nested := (ho _ _).mem_iff.1 (by rw [he]; exact List.mem_cons_self)
    have hmen : Mentions env m (env n) := mentions_iff.2 ⟨n, hmem, rfl⟩
    rw [he, requireNested, stuck_diverges hn ho fuel { g with iterations := g.iterations + 1 } (env n)
      (fun x hx => hs x (Relation.ReflTransGen.head hmen hx))
      (fun x hx => hg x (Relation.ReflTransGen.head hmen hx))]

/-! ## An order that leads to flat messages first -/

/-- A flat message is found `k` steps inside of the message. -/
def Near (env : DocEnv) : Nat → MsgOf → Prop
  | 0, m => Flat m
  | k + 1, m => ∃ m', Mentions env m m' ∧ Near env k m'

theorem near_of_reaches {x y : MsgOf} (h : Reaches env x y) (hy : Flat y) : ∃ k, Near env k x := by
  induction h using Relation.ReflTransGen.head_induction_on with
  | refl => exact ⟨0, hy⟩
  | head hm _ ih => obtain ⟨k, hk⟩ := ih; exact ⟨k + 1, _, hm, hk⟩

open Classical in
/-- The distance to the next flat message. -/
noncomputable def flatDist (env : DocEnv) (m : MsgOf) : Nat :=
  if h : ∃ k, Near env k m then Nat.find h else 0

theorem near_flatDist {m : MsgOf} (h : ∃ k, Near env k m) : Near env (flatDist env m) m := by
  classical
  unfold flatDist
  rw [dif_pos h]
  convert Nat.find_spec h

theorem flatDist_le {m : MsgOf} {k : Nat} (h : Near env k m) : flatDist env m ≤ k := by
  classical
  have he : ∃ k, Near env k m := ⟨k, h⟩
  unfold flatDist
  rw [dif_pos he]
  exact Nat.find_min' he h

theorem exists_nearest (f : Bytes → Nat) : ∀ (l : List Bytes), l ≠ [] → ∃ a ∈ l, ∀ b ∈ l, f a ≤ f b
  | [], h => absurd rfl h
  | [a], _ => ⟨a, by simp, by simp⟩
  | a :: b :: l, _ => by
    obtain ⟨c, hc, hmin⟩ := exists_nearest f (b :: l) (by simp)
    by_cases h : f a ≤ f c
    · refine ⟨a, List.mem_cons_self, fun x hx => ?_⟩
      rcases List.mem_cons.1 hx with rfl | hx
      · exact Nat.le_refl _
      · exact Nat.le_trans h (hmin x hx)
    · refine ⟨c, List.mem_cons_of_mem _ hc, fun x hx => ?_⟩
      rcases List.mem_cons.1 hx with rfl | hx
      · omega
      · exact hmin x hx

open Classical in
/-- The order that begins with the message that is nearest to a flat one. -/
noncomputable def nearestFirst (env : DocEnv) : MapOrder := fun _ l =>
  if h : l ≠ [] then
    (exists_nearest (fun n => flatDist env (env n)) l h).choose ::
      l.erase (exists_nearest (fun n => flatDist env (env n)) l h).choose
  else l

theorem isOrder_nearestFirst : IsOrder (nearestFirst env) := by
  intro n l
  unfold nearestFirst
  split
  · rename_i h
    exact (List.perm_cons_erase (exists_nearest (fun n => flatDist env (env n)) l h).choose_spec.1).symm
  · exact List.Perm.refl _

theorem nearestFirst_head {i : Nat} {l : List Bytes} (h : l ≠ []) :
    ∃ n ns, nearestFirst env i l = n :: ns ∧ ∀ b ∈ l, flatDist env (env n) ≤ flatDist env (env b) := by
  refine ⟨_, _, by unfold nearestFirst; rw [dif_pos h], ?_⟩
  exact (exists_nearest (fun n => flatDist env (env n)) l h).choose_spec.2

/-- The number of names not yet marked. -/
def unmarked (names : List Bytes) (g : Gen) : Nat := (names.filter fun n => n ∉ g.marked).length

theorem unmarked_le {names : List Bytes} {g g' : Gen} (h : ∀ n ∈ g.marked, n ∈ g'.marked) :
    unmarked names g' ≤ unmarked names g := by
  unfold unmarked
  refine List.Sublist.length_le (List.monotone_filter_right _ ?_)
  intro n hn
  simp only [decide_eq_true_eq] at hn ⊢
  exact fun hm => hn (h n hm)

theorem unmarked_lt {names : List Bytes} {g g' : Gen} {n : Bytes} (hn : n ∈ names) (hg : n ∉ g.marked)
    (hg' : n ∈ g'.marked) (h : ∀ n ∈ g.marked, n ∈ g'.marked) : unmarked names g' < unmarked names g := by
  unfold unmarked
  have hs : (names.filter fun n => n ∉ g'.marked).Sublist (names.filter fun n => n ∉ g.marked) := by
    refine List.monotone_filter_right _ ?_
    intro n hn
    simp only [decide_eq_true_eq] at hn ⊢
    exact fun hm => hn (h n hm)
  rcases Nat.lt_or_ge (names.filter fun n => n ∉ g'.marked).length (names.filter fun n => n ∉ g.marked).length with hl | hl
  · exact hl
  · have he := hs.eq_of_length_le hl
    have : n ∈ names.filter fun n => n ∉ g'.marked := by rw [he]; simp [hn, hg]
    simp [hg'] at this

theorem requireNested_terminates_of {names : List Bytes} {u : Nat} {self : Bytes} (hn : NamesKnown env)
    (ho : IsOrder ord) :
    ∀ (l : List Bytes) (g : Gen), unmarked names g ≤ u →
      (∀ n ∈ l, ∀ g, unmarked names g ≤ u → ∃ fuel g', addRequired env ord fuel g (env n) = some g') →
      ∃ fuel g', requireNested (addRequired env ord fuel) env self g l = some g'
  | [], g, _, _ => ⟨0, g, rfl⟩
  | n :: ns, g, hu, h => by
    obtain ⟨f1, g1, h1⟩ := h n List.mem_cons_self g hu
    obtain ⟨_, _, hg⟩ := addRequired_grows hn ho _ _ _ _ h1
    obtain ⟨f2, g2, h2⟩ := requireNested_terminates_of hn ho (self := self) ns { g1 with marked := self :: g1.marked }
      (Nat.le_trans (unmarked_le fun k hk => List.mem_cons_of_mem _ (hg.marked k hk)) hu)
      fun k hk => h k (List.mem_cons_of_mem _ hk)
    refine ⟨max f1 f2, g2, ?_⟩
    unfold requireNested
    rw [addRequired_mono (Nat.le_max_left f1 f2) h1]
    exact requireNested_mono (fun _ _ _ e => addRequired_mono (Nat.le_max_right f1 f2) e) _ _ _ h2

theorem addRequired_flat (ho : IsOrder ord) {m : MsgOf} (h : m.desc.nested = []) (g : Gen) :
    ∃ fuel g', addRequired env ord fuel g m = some g' := by
  by_cases hm : m.desc.fullName ∈ g.marked
  · exact ⟨1, g, by rw [addRequired, if_pos hm]⟩
  · have hl : requireNested (addRequired env ord 0) env m.desc.fullName
        { g with iterations := g.iterations + 1 } (ord g.iterations m.desc.nested) =
        some { g with iterations := g.iterations + 1 } := by
      rw [h, List.perm_nil.1 (ho g.iterations []), requireNested]
    exact ⟨1, _, by rw [addRequired, if_neg hm, hl]⟩

theorem nearestFirst_terminates (hn : NamesKnown env) {names : List Bytes} :
    ∀ (u k : Nat) (g : Gen) (m : MsgOf), (∀ x, Reaches env m x → x.desc.fullName ∈ names) →
      (∀ x, Reaches env m x → ∃ y, Reaches env x y ∧ Flat y) → unmarked names g ≤ u → flatDist env m ≤ k →
      ∃ fuel g', addRequired env (nearestFirst env) fuel g m = some g' := by
  intro u
  induction u with
  | zero =>
    intro k g m hnames hflat hu hk
    have hm : m.desc.fullName ∈ g.marked := by
      by_contra hm
      have : m.desc.fullName ∈ names.filter fun n => n ∉ g.marked := by
        simp [hnames m Relation.ReflTransGen.refl, hm]
      unfold unmarked at hu
      rw [List.length_eq_zero_iff.1 (Nat.le_zero.1 hu)] at this
      cases this
    exact ⟨1, g, by rw [addRequired, if_pos hm]⟩
  | succ u ihu =>
    intro k
    induction k with
    | zero =>
      intro g m hnames hflat hu hk
      by_cases hm : m.desc.fullName ∈ g.marked
      · exact ⟨1, g, by rw [addRequired, if_pos hm]⟩
      · obtain ⟨y, hy, hyf⟩ := hflat m Relation.ReflTransGen.refl
        have := near_flatDist (near_of_reaches hy hyf)
        rw [Nat.le_zero.1 hk] at this
        have hnil := nested_nil_iff.2 this
        exact addRequired_flat isOrder_nearestFirst hnil g
    | succ k ihk =>
      intro g m hnames hflat hu hk
      by_cases hm : m.desc.fullName ∈ g.marked
      · exact ⟨1, g, by rw [addRequired, if_pos hm]⟩
      · by_cases hnil : m.desc.nested = []
        · exact addRequired_flat isOrder_nearestFirst hnil g
        · obtain ⟨n, ns, he, hmin⟩ := nearestFirst_head (env := env) (i := g.iterations) hnil
          have hsub : ∀ b ∈ n :: ns, Mentions env m (env b) := fun b hb =>
            mentions_iff.2 ⟨b, (isOrder_nearestFirst g.iterations _).mem_iff.1 (by rw [he]; exact hb), rfl⟩
          have hnames' : ∀ b ∈ n :: ns, ∀ x, Reaches env (env b) x → x.desc.fullName ∈ names :=
            fun b hb x hx => hnames x (Relation.ReflTransGen.head (hsub b hb) hx)
          have hflat' : ∀ b ∈ n :: ns, ∀ x, Reaches env (env b) x → ∃ y, Reaches env x y ∧ Flat y :=
            fun b hb x hx => hflat x (Relation.ReflTransGen.head (hsub b hb) hx)
          have hdist : flatDist env (env n) ≤ k := by
            obtain ⟨y, hy, hyf⟩ := hflat m Relation.ReflTransGen.refl
            have hnear := near_flatDist (near_of_reaches hy hyf)
            cases hd : flatDist env m with
            | zero => rw [hd] at hnear; exact absurd (nested_nil_iff.2 hnear) hnil
            | succ j =>
              rw [hd] at hnear
              obtain ⟨m', hm', hj⟩ := hnear
              obtain ⟨b, hb, rfl⟩ := mentions_iff.1 hm'
              have := hmin b hb
              have := flatDist_le hj
              omega
          obtain ⟨f1, g1, h1⟩ := ihk { g with iterations := g.iterations + 1 } (env n)
            (hnames' n List.mem_cons_self) (hflat' n List.mem_cons_self) hu hdist
          obtain ⟨_, _, hg⟩ := addRequired_grows hn isOrder_nearestFirst _ _ _ _ h1
          obtain ⟨f2, g2, h2⟩ := requireNested_terminates_of hn isOrder_nearestFirst (names := names) (u := u)
            (self := m.desc.fullName) ns { g1 with marked := m.desc.fullName :: g1.marked }
            (by
              have := unmarked_lt (g := g) (g' := { g1 with marked := m.desc.fullName :: g1.marked })
                (hnames m Relation.ReflTransGen.refl) hm List.mem_cons_self
                (fun b hb => List.mem_cons_of_mem _ (hg.marked b hb))
              omega)
            (fun b hb g hg => ihu _ g (env b) (hnames' b (List.mem_cons_of_mem _ hb))
              (hflat' b (List.mem_cons_of_mem _ hb)) hg (Nat.le_refl _))
          have hl : requireNested (addRequired env (nearestFirst env) (max f1 f2)) env m.desc.fullName
              { g with iterations := g.iterations + 1 } (nearestFirst env g.iterations m.desc.nested) = some g2 := by
            rw [he, requireNested, addRequired_mono (Nat.le_max_left f1 f2) h1]
            exact requireNested_mono (fun _ _ _ e => addRequired_mono (Nat.le_max_right f1 f2) e) _ _ _ h2
          exact ⟨max f1 f2 + 1, _, by rw [addRequired, if_neg hm, hl]⟩

/-- No flat message is found inside of the message. -/
def Stuck (env : DocEnv) (m : MsgOf) : Prop := ∀ x, Reaches env m x → ¬ Flat x

theorem known_of_reaches (hn : NamesKnown env) {m x : MsgOf} (hm : env m.desc.fullName = m)
    (h : Reaches env m x) : env x.desc.fullName = x := by
  induction h with
  | refl => exact hm
  | tail _ hm' _ => obtain ⟨n, _, rfl⟩ := mentions_iff.1 hm'; rw [hn]

theorem requireNested_keeps {P : Gen → Prop} {rec : Gen → MsgOf → Option Gen} {self : Bytes}
    (hself : ∀ g : Gen, P g → P { g with marked := self :: g.marked }) :
    ∀ (l : List Bytes) (g g' : Gen), (∀ n ∈ l, ∀ g g', P g → rec g (env n) = some g' → P g') → P g →
      requireNested rec env self g l = some g' → P g'
  | [], g, g', _, hg, e => by rw [requireNested] at e; obtain rfl := Option.some.inj e; exact hg
  | n :: ns, g, g', h, hg, e => by
    rw [requireNested] at e
    cases hr : rec g (env n) with
    | none => rw [hr] at e; cases e
    | some g1 =>
      rw [hr] at e
      exact requireNested_keeps hself ns _ _ (fun k hk => h k (List.mem_cons_of_mem _ hk))
        (hself _ (h n List.mem_cons_self _ _ hg hr)) e

theorem addRequired_not_stuck (hn : NamesKnown env) (ho : IsOrder ord) :
    ∀ (fuel : Nat) (g : Gen) (m : MsgOf) (g' : Gen), env m.desc.fullName = m →
      (∀ n ∈ g.marked, ¬ Stuck env (env n)) → addRequired env ord fuel g m = some g' →
      ∀ n ∈ g'.marked, ¬ Stuck env (env n)
  | 0, _, _, _, _, _, e => by cases e
  | fuel + 1, g, m, g', hm, hg, e => by
    have hns : ¬ Stuck env m := by
      intro hs
      rw [stuck_diverges hn ho _ _ _ hs] at e
      · cases e
      · intro x hx hmem
        apply hg _ hmem
        rw [known_of_reaches hn hm hx]
        exact fun y hy => hs y (Relation.ReflTransGen.trans hx hy)
    rw [addRequired] at e
    split at e
    · obtain rfl := Option.some.inj e; exact hg
    · cases hr : requireNested (addRequired env ord fuel) env m.desc.fullName
          { g with iterations := g.iterations + 1 } (ord g.iterations m.desc.nested) with
      | none => rw [hr] at e; cases e
      | some g1 =>
        rw [hr] at e
        obtain rfl := Option.some.inj e
        have hown : ∀ g : Gen, (∀ n ∈ g.marked, ¬ Stuck env (env n)) →
            ∀ n ∈ m.desc.fullName :: g.marked, ¬ Stuck env (env n) := by
          intro g hg n hn'
          rcases List.mem_cons.1 hn' with rfl | hn'
          · rw [hm]; exact hns
          · exact hg n hn'
        refine hown g1 (requireNested_keeps (P := fun g => ∀ n ∈ g.marked, ¬ Stuck env (env n)) hown _ _ _ ?_ ?_ hr)
        · intro n _ g g' hg' e'
          exact addRequired_not_stuck hn ho fuel g (env n) g' (by rw [hn]) hg' e'
        · exact hg

/-! ## Everything reached is required -/

/-- The operations registered for an object. -/
def apiOps (o : ApiObject) : List RawOp :=
  if o.schema.singleton then [⟨b!"singleton." ++ o.api.name, singletonPath o.api, [], o.msg⟩]
  else [⟨b!"get." ++ o.api.name, instancePath o.api o.schema.primaryKey, [], o.msg⟩,
    ⟨b!"list." ++ o.api.name, listPath o.api, listParameters, forgeList o.msg⟩]

/-- The state of the generator after the messages `roots` were required. -/
structure Requires (env : DocEnv) (roots : List MsgOf) (g : Gen) : Prop where
  names : ∀ n, n ∈ g.marked ↔ ∃ x ∈ g.objects, x.desc.fullName = n
  closed : ∀ x ∈ g.objects, ∀ n ∈ x.desc.nested, n ∈ g.marked
  schemas : g.schemas = g.objects.map MsgOf.typeName
  rooted : ∀ r ∈ roots, r.desc.fullName ∈ g.marked
  reached : ∀ x ∈ g.objects, ∃ r ∈ roots, Reaches env r x

theorem requires_empty : Requires env [] {} :=
  ⟨by simp, by simp, by simp, by simp, by simp⟩

theorem Requires.addOp {roots : List MsgOf} {g : Gen} (h : Requires env roots g) (op : RawOp) :
    Requires env roots (g.addOp op) := ⟨h.names, h.closed, h.schemas, h.rooted, h.reached⟩

theorem Requires.add (hn : NamesKnown env) (ho : IsOrder ord) {roots : List MsgOf} {g g' : Gen} {fuel : Nat}
    {m : MsgOf} (h : Requires env roots g) (e : addRequired env ord fuel g m = some g') :
    Requires env (roots ++ [m]) g' ∧ g'.ops = g.ops ∧ ∃ l, g'.objects = g.objects ++ l ∧ ∀ x ∈ l, Reaches env m x := by
  obtain ⟨hm, l, hg⟩ := addRequired_grows hn ho _ _ _ _ e
  refine ⟨⟨?_, ?_, ?_, ?_, ?_⟩, hg.ops, l, hg.objects, hg.reached⟩
  · intro n
    constructor
    · intro hn'
      rw [hg.objects]
      rcases hg.new n hn' with h' | h' | ⟨x, hx, he⟩
      · obtain ⟨x, hx, he⟩ := (h.names n).1 h'
        exact ⟨x, List.mem_append_left _ hx, he⟩
      · cases h'
      · exact ⟨x, List.mem_append_right _ hx, he⟩
    · rintro ⟨x, hx, rfl⟩
      rw [hg.objects] at hx
      rcases List.mem_append.1 hx with hx | hx
      · exact hg.marked _ ((h.names _).2 ⟨x, hx, rfl⟩)
      · exact hg.named x hx
  · intro x hx n hn'
    rw [hg.objects] at hx
    rcases List.mem_append.1 hx with hx | hx
    · exact hg.marked _ (h.closed x hx n hn')
    · exact hg.closed x hx n hn'
  · rw [hg.schemas, hg.objects, h.schemas, List.map_append]
  · intro r hr
    rcases List.mem_append.1 hr with hr | hr
    · exact hg.marked _ (h.rooted r hr)
    · rw [List.mem_singleton.1 hr]; exact hm
  · intro x hx
    rw [hg.objects] at hx
    rcases List.mem_append.1 hx with hx | hx
    · obtain ⟨r, hr, hx⟩ := h.reached x hx
      exact ⟨r, List.mem_append_left _ hr, hx⟩
    · exact ⟨m, by simp, hg.reached x hx⟩

theorem addApiObject_requires (hn : NamesKnown env) (ho : IsOrder ord) {roots : List MsgOf} {g g' : Gen} {fuel : Nat}
    {o : ApiObject} (h : Requires env roots g) (e : addApiObject env ord fuel g o = some g') :
    Requires env (roots ++ answers o) g' ∧ g'.ops = g.ops ++ apiOps o ∧ ∃ l, g'.objects = g.objects ++ l ∧
      ∀ x ∈ l, ∃ r ∈ answers o, Reaches env r x := by
  unfold addApiObject at e
  unfold answers apiOps
  split at e
  · rename_i hs
    rw [if_pos hs, if_pos hs]
    obtain ⟨h1, h2, l, h3, h4⟩ := (h.addOp _).add hn ho e
    exact ⟨h1, h2, l, h3, fun x hx => ⟨_, List.mem_singleton.2 rfl, h4 x hx⟩⟩
  · rename_i hs
    rw [if_neg hs, if_neg hs]
    split at e
    · cases e
    · rename_i g1 e1
      obtain ⟨h1, h2, l, h3, h4⟩ := (h.addOp _).add hn ho e1
      obtain ⟨k1, k2, l', k3, k4⟩ := (h1.addOp _).add hn ho e
      refine ⟨by rw [List.append_assoc] at k1; exact k1, ?_, l ++ l', ?_, ?_⟩
      · rw [k2]; unfold Gen.addOp; rw [h2]; unfold Gen.addOp; simp
      · rw [k3]; unfold Gen.addOp; rw [h3]; unfold Gen.addOp; simp
      · intro x hx
        rcases List.mem_append.1 hx with hx | hx
        · exact ⟨_, by simp, h4 x hx⟩
        · exact ⟨_, by simp, k4 x hx⟩

theorem addApiObjects_requires (hn : NamesKnown env) (ho : IsOrder ord) {fuel : Nat} :
    ∀ (objs : List ApiObject) {roots : List MsgOf} {g g' : Gen}, Requires env roots g →
      addApiObjects env ord fuel g objs = some g' →
      Requires env (roots ++ objs.flatMap answers) g' ∧ g'.ops = g.ops ++ objs.flatMap apiOps ∧
      ∃ l, g'.objects = g.objects ++ l ∧ ∀ x ∈ l, Answered env objs x
  | [], roots, g, g', h, e => by
    rw [addApiObjects] at e
    obtain rfl := Option.some.inj e
    exact ⟨by simpa using h, by simp, [], by simp, by simp⟩
  | o :: os, roots, g, g', h, e => by
    rw [addApiObjects] at e
    cases hr : addApiObject env ord fuel g o with
    | none => rw [hr] at e; cases e
    | some g1 =>
      rw [hr] at e
      obtain ⟨h1, h2, l, h3, h4⟩ := addApiObject_requires hn ho h hr
      obtain ⟨k1, k2, l', k3, k4⟩ := addApiObjects_requires hn ho os h1 e
      refine ⟨by rw [List.append_assoc] at k1; exact k1, ?_, l ++ l', ?_, ?_⟩
      · rw [k2, h2, List.append_assoc]; rfl
      · rw [k3, h3, List.append_assoc]
      · intro x hx
        rcases List.mem_append.1 hx with hx | hx
        · obtain ⟨r, hr, hx⟩ := h4 x hx
          exact ⟨o, List.mem_cons_self, r, hr, hx⟩
        · obtain ⟨o', ho', r⟩ := k4 x hx
          exact ⟨o', List.mem_cons_of_mem _ ho', r⟩

theorem answered_iff {objs : List ApiObject} {m : MsgOf} :
    Answered env objs m ↔ ∃ r ∈ objs.flatMap answers, Reaches env r m := by
  unfold Answered
  constructor
  · rintro ⟨o, ho, r, hr, h⟩
    exact ⟨r, List.mem_flatMap.2 ⟨o, ho, hr⟩, h⟩
  · rintro ⟨r, hr, h⟩
    obtain ⟨o, ho, hr⟩ := List.mem_flatMap.1 hr
    exact ⟨o, ho, r, hr, h⟩

theorem mem_objects_iff (hn : NamesKnown env) {objs : List ApiObject} (hu : NamesUnique env objs) {g : Gen}
    (h : Requires env (objs.flatMap answers) g) (m : MsgOf) : m ∈ g.objects ↔ Answered env objs m := by
  constructor
  · intro hm
    exact answered_iff.2 (h.reached m hm)
  · intro hm
    obtain ⟨r, hr, hreach⟩ := answered_iff.1 hm
    clear hm
    have base : ∀ y, Reaches env r y → y.desc.fullName ∈ g.marked → y ∈ g.objects := by
      intro y hy hmem
      obtain ⟨x, hx, he⟩ := (h.names _).1 hmem
      rw [← hu x y (answered_iff.2 (h.reached x hx)) (answered_iff.2 ⟨r, hr, hy⟩) he]
      exact hx
    induction hreach with
    | refl => exact base r Relation.ReflTransGen.refl (h.rooted r hr)
    | tail hy hmen ih =>
      refine base _ (Relation.ReflTransGen.tail hy hmen) ?_
      obtain ⟨n, hn', rfl⟩ := mentions_iff.1 hmen
      rw [hn]
      exact h.closed _ ih n hn'

/-! ## The files -/

mutual
theorem addDep_sub : ∀ (f : DocFile) (acc : List DocFile) (h : DocFile), h ∈ addDep acc f → h ∈ acc ∨ Within f h
  | .mk path package messages services imports, acc, h, hm => by
    rw [addDep] at hm
    split at hm
    · exact Or.inl hm
    · rcases List.mem_append.1 hm with hm | hm
      · rcases addDeps_sub imports acc h hm with hm | ⟨f, hf, hw⟩
        · exact Or.inl hm
        · exact Or.inr (.step (g := f) hf hw)
      · rw [List.mem_singleton.1 hm]; exact Or.inr (.refl _)

theorem addDeps_sub : ∀ (fs : List DocFile) (acc : List DocFile) (h : DocFile), h ∈ addDeps acc fs →
    h ∈ acc ∨ ∃ f ∈ fs, Within f h
  | [], acc, h, hm => by rw [addDeps] at hm; exact Or.inl hm
  | f :: fs, acc, h, hm => by
    rw [addDeps] at hm
    rcases addDeps_sub fs _ h hm with hm | ⟨f', hf', hw⟩
    · rcases addDep_sub f acc h hm with hm | hw
      · exact Or.inl hm
      · exact Or.inr ⟨f, List.mem_cons_self, hw⟩
    · exact Or.inr ⟨f', List.mem_cons_of_mem _ hf', hw⟩
end

mutual
theorem addDep_acc : ∀ (f : DocFile) (acc : List DocFile) (h : DocFile), h ∈ acc → h ∈ addDep acc f
  | .mk path package messages services imports, acc, h, hm => by
    rw [addDep]
    split
    · exact hm
    · exact List.mem_append_left _ (addDeps_acc imports acc h hm)

theorem addDeps_acc : ∀ (fs : List DocFile) (acc : List DocFile) (h : DocFile), h ∈ acc → h ∈ addDeps acc fs
  | [], acc, h, hm => by rw [addDeps]; exact hm
  | f :: fs, acc, h, hm => by
    rw [addDeps]
    exact addDeps_acc fs _ h (addDep_acc f acc h hm)
end

theorem addDep_path (f : DocFile) (acc : List DocFile) : f.path ∈ (addDep acc f).map DocFile.path := by
  cases f with
  | mk path package messages services imports =>
    rw [addDep]
    split
    · rename_i h; exact h
    · simp [DocFile.path]

theorem addDeps_path : ∀ (fs : List DocFile) (acc : List DocFile), ∀ f ∈ fs,
    f.path ∈ (addDeps acc fs).map DocFile.path
  | [], _, _, h => by cases h
  | f :: fs, acc, f', h => by
    rw [addDeps]
    rcases List.mem_cons.1 h with rfl | h
    · obtain ⟨g, hg, he⟩ := List.mem_map.1 (addDep_path f' acc)
      exact List.mem_map.2 ⟨g, addDeps_acc fs _ g hg, he⟩
    · exact addDeps_path fs _ f' h

/-- The imports of the files are there. -/
def ImportsIn (l : List DocFile) : Prop := ∀ f ∈ l, ∀ i ∈ f.imports, i.path ∈ l.map DocFile.path

mutual
theorem addDep_imports : ∀ (f : DocFile) (acc : List DocFile), ImportsIn acc → ImportsIn (addDep acc f)
  | .mk path package messages services imports, acc, h => by
    rw [addDep]
    split
    · exact h
    · have h' := addDeps_imports imports acc h
      intro f hf i hi
      rw [List.map_append]
      rcases List.mem_append.1 hf with hf | hf
      · exact List.mem_append_left _ (h' f hf i hi)
      · rw [List.mem_singleton.1 hf] at hi
        exact List.mem_append_left _ (addDeps_path imports acc i hi)

theorem addDeps_imports : ∀ (fs : List DocFile) (acc : List DocFile), ImportsIn acc → ImportsIn (addDeps acc fs)
  | [], acc, h => by rw [addDeps]; exact h
  | f :: fs, acc, h => by rw [addDeps]; exact addDeps_imports fs _ (addDep_imports f acc h)
end

/-- A path is the path of one file only. -/
def PathsOf (fs : List DocFile) : Prop :=
  ∀ f ∈ fs, ∀ f' ∈ fs, ∀ g g', Within f g → Within f' g' → g.path = g'.path → g = g'

theorem mem_addDeps {fs : List DocFile} (hp : PathsOf fs) (h : DocFile) :
    h ∈ addDeps [] fs ↔ ∃ f ∈ fs, Within f h := by
  have sub : ∀ h, h ∈ addDeps [] fs → ∃ f ∈ fs, Within f h := by
    intro h hm
    rcases addDeps_sub fs [] h hm with hm | hm
    · cases hm
    · exact hm
  refine ⟨sub h, ?_⟩
  rintro ⟨f, hf, hw⟩
  have key : ∀ g, Within f g → g.path ∈ (addDeps [] fs).map DocFile.path → g ∈ addDeps [] fs := by
    intro g hg hm
    obtain ⟨g', hg', he⟩ := List.mem_map.1 hm
    obtain ⟨f', hf', hw'⟩ := sub g' hg'
    rw [hp f hf f' hf' g g' hg hw' he.symm]
    exact hg'
  have himp := addDeps_imports fs [] (by intro f hf; cases hf)
  have down : ∀ g h, Within g h → Within f g → g ∈ addDeps [] fs → h ∈ addDeps [] fs := by
    intro g h hw
    induction hw with
    | refl => intro _ h; exact h
    | step hi _ ih =>
      intro hfg hg
      have hfi : ∀ {a b c}, Within a b → c ∈ b.imports → Within a c := by
        intro a b c hab hc
        induction hab with
        | refl => exact .step hc (.refl _)
        | step hi _ ih => exact .step hi (ih hc)
      exact ih (hfi hfg hi) (key _ (hfi hfg hi) (himp _ hg _ hi))
  exact down f h hw (.refl _) (key f (.refl _) (addDeps_path fs [] f hf))

/-! ## Operations -/

theorem mem_addOperation {op : Operation} {path : Bytes} : ∀ {l : List (Bytes × Operation)} {e : Bytes × Operation},
    e ∈ addOperation op path l → e = (path, op) ∨ e ∈ l
  | [], e, h => by rw [addOperation] at h; exact Or.inl (List.mem_singleton.1 h)
  | (p, o) :: rest, e, h => by
    rw [addOperation] at h
    split at h
    · rename_i hp
      rcases List.mem_cons.1 h with rfl | h
      · exact Or.inl (by rw [hp])
      · exact Or.inr (List.mem_cons_of_mem _ h)
    · rcases List.mem_cons.1 h with rfl | h
      · exact Or.inr List.mem_cons_self
      · rcases mem_addOperation h with h | h
        · exact Or.inl h
        · exact Or.inr (List.mem_cons_of_mem _ h)

theorem mem_addRawOps : ∀ {ops : List RawOp} {l : List (Bytes × Operation)} {e : Bytes × Operation},
    e ∈ addRawOps l ops → e ∈ l ∨ ∃ r ∈ ops, e = (r.path, r.operation)
  | [], l, e, h => Or.inl h
  | r :: rs, l, e, h => by
    rcases mem_addRawOps (ops := rs) (l := addOperation r.operation r.path l) h with h | ⟨r', hr', h⟩
    · rcases mem_addOperation h with h | h
      · exact Or.inr ⟨r, List.mem_cons_self, h⟩
      · exact Or.inl h
    · exact Or.inr ⟨r', List.mem_cons_of_mem _ hr', h⟩

theorem mem_passes {ops : List RawOp} : ∀ {files : List DocFile} {l : List (Bytes × Operation)} {e : Bytes × Operation},
    e ∈ files.foldl (fun ps _ => addRawOps ps ops) l → e ∈ l ∨ ∃ r ∈ ops, e = (r.path, r.operation)
  | [], l, e, h => Or.inl h
  | _ :: fs, l, e, h => by
    rcases mem_passes (files := fs) (l := addRawOps l ops) h with h | h
    · exact mem_addRawOps h
    · exact Or.inr h

theorem mem_insertNamed {α : Type} {a b : Bytes × α} : ∀ {l : List (Bytes × α)}, b ∈ insertNamed a l ↔ b = a ∨ b ∈ l
  | [] => by simp [insertNamed]
  | c :: l => by
    rw [insertNamed]
    split
    · rw [List.mem_cons, mem_insertNamed, List.mem_cons]; tauto
    · simp

theorem mem_sortNamed {α : Type} {b : Bytes × α} : ∀ {l : List (Bytes × α)}, b ∈ sortNamed l ↔ b ∈ l
  | [] => by simp [sortNamed]
  | c :: l => by
    show b ∈ insertNamed c (sortNamed l) ↔ _
    rw [mem_insertNamed, mem_sortNamed, List.mem_cons]

end Verif
