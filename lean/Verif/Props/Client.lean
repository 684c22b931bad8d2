import Verif.Model.Client
import Verif.Props.Chain
/-!
# Clients of the chain

* **C95** The query `api_resources` lists the state objects and state transitions of the chain.
* **C96** `spfcli get` prints the object its arguments name.
-/

namespace Verif.Props
open Spec

/-! ## C95 -/

theorem groups_spec (r : Registry) : r.groups.Nodup ∧ ∀ g, g ∈ r.groups ↔ ∃ s ∈ r, s.api.group = g := by
  have : ∀ (r : Registry) (l : List Bytes), l.Nodup →
      (r.foldl (fun l s => if s.api.group ∈ l then l else l ++ [s.api.group]) l).Nodup ∧
      ∀ g, g ∈ r.foldl (fun l s => if s.api.group ∈ l then l else l ++ [s.api.group]) l ↔
        g ∈ l ∨ ∃ s ∈ r, s.api.group = g := by
    intro r
    induction r with
    | nil => intro l hl; exact ⟨hl, by simp⟩
    | cons s r ih =>
      intro l hl
      rw [List.foldl_cons]
      by_cases hg : s.api.group ∈ l
      · rw [if_pos hg]
        refine ⟨(ih l hl).1, fun g => ?_⟩
        rw [(ih l hl).2]
        constructor
        · rintro (h | ⟨t, ht, h⟩)
          · exact .inl h
          · exact .inr ⟨t, List.mem_cons_of_mem _ ht, h⟩
        · rintro (h | ⟨t, ht, rfl⟩)
          · exact .inl h
          · rcases List.mem_cons.1 ht with rfl | ht
            · exact .inl hg
            · exact .inr ⟨t, ht, rfl⟩
      · rw [if_neg hg]
        have hl' : (l ++ [s.api.group]).Nodup := by
          rw [List.nodup_append]
          refine ⟨hl, List.nodup_singleton _, ?_⟩
          intro a ha b hb hab
          rw [List.mem_singleton.1 hb] at hab
          exact hg (hab ▸ ha)
        refine ⟨(ih _ hl').1, fun g => ?_⟩
        rw [(ih _ hl').2, List.mem_append, List.mem_singleton]
        constructor
        · rintro ((h | rfl) | ⟨t, ht, h⟩)
          · exact .inl h
          · exact .inr ⟨s, List.mem_cons_self, rfl⟩
          · exact .inr ⟨t, List.mem_cons_of_mem _ ht, h⟩
        · rintro (h | ⟨t, ht, rfl⟩)
          · exact .inl (.inl h)
          · rcases List.mem_cons.1 ht with rfl | ht
            · exact .inl (.inr rfl)
            · exact .inr ⟨t, ht, rfl⟩
  have h := this r [] List.nodup_nil
  refine ⟨h.1, fun g => ?_⟩
  show g ∈ r.foldl _ [] ↔ _
  rw [h.2]
  simp

theorem resources_loop {r : Registry} {gs : List Bytes} (h : ∀ g ∈ gs, g ∈ r.groups) :
    apiResources.loop r gs = .ret (gs.map fun g => ⟨g, (r.filter fun s => s.api.group = g).map (·.api.kind), []⟩) := by
  induction gs with
  | nil => rfl
  | cons g gs ih =>
    obtain ⟨s, hs, hg⟩ := ((groups_spec r).2 g).1 (h g List.mem_cons_self)
    have hne : (r.filter fun s => s.api.group = g).map (fun s => s.api.kind) ≠ [] := by
      intro e
      have := List.map_eq_nil_iff.1 e
      have hm : s ∈ r.filter fun s => s.api.group = g := List.mem_filter.2 ⟨hs, by simp [hg]⟩
      rw [this] at hm
      cases hm
    have hk : r.kindsInGroup g = some ((r.filter fun s => s.api.group = g).map fun s => s.api.kind) := by
      unfold Registry.kindsInGroup
      cases hl : (r.filter fun s => s.api.group = g).map (fun s => s.api.kind) with
      | nil => exact absurd hl hne
      | cons k ks => rfl
    rw [apiResources.loop, hk, ih fun g hg => h g (List.mem_cons_of_mem _ hg)]
    rfl

theorem resources_eq {order : List Bytes → List Bytes} (ho : ∀ l, (order l).Perm l) (r : Registry) :
    apiResources order r = .ret ((order r.groups).map fun g =>
      ⟨g, (r.filter fun s => s.api.group = g).map (·.api.kind), []⟩) :=
  resources_loop fun _ hg => (ho _).mem_iff.1 hg

/-- **C95** (partial) Whatever the order in which Go iterates over the map, the query is answered: each
group once, in each group each kind once, and exactly the kinds the query `get` knows.  Missing are the
state transitions. -/
theorem C95_objects_partial (r : Registry) (hr : (r.map Schema.name).Nodup) {order : List Bytes → List Bytes}
    (ho : ∀ l, (order l).Perm l) :
    ∃ l, apiResources order r = .ret l ∧ (l.map (·.group)).Nodup ∧ (∀ e ∈ l, e.objects.Nodup ∧ e.objects ≠ []) ∧
      ∀ g k, (∃ e ∈ l, e.group = g ∧ k ∈ e.objects) ↔ r.getByAPI g k ≠ none := by
  refine ⟨_, resources_eq ho r, ?_, ?_, ?_⟩
  · rw [List.map_map]
    have : ((fun e : GroupResources => e.group) ∘ fun g =>
        (⟨g, (r.filter fun s => s.api.group = g).map (·.api.kind), []⟩ : GroupResources)) = id := rfl
    rw [this, List.map_id]
    exact ((ho _).nodup_iff).2 (groups_spec r).1
  · intro e he
    obtain ⟨g, hg, rfl⟩ := List.mem_map.1 he
    constructor
    · have h1 : ((r.filter fun s => s.api.group = g).map Schema.name).Nodup :=
        hr.sublist (List.filter_sublist.map _)
      have h2 := List.pairwise_map.1 h1
      rw [List.Nodup, List.pairwise_map]
      refine h2.imp_of_mem ?_
      intro a b ha hb hab e
      apply hab
      have ga := (List.mem_filter.1 ha).2
      have gb := (List.mem_filter.1 hb).2
      simp only [decide_eq_true_eq] at ga gb
      simp only [Schema.name, APIDef.name, ga, gb, e]
    · obtain ⟨s, hs, hg⟩ := ((groups_spec r).2 g).1 ((ho _).mem_iff.1 hg)
      intro e
      have := List.map_eq_nil_iff.1 e
      have hm : s ∈ r.filter fun s => s.api.group = g := List.mem_filter.2 ⟨hs, by simp [hg]⟩
      rw [this] at hm
      cases hm
  · intro g k
    have hget : r.getByAPI g k ≠ none ↔ ∃ s ∈ r, s.api.group = g ∧ s.api.kind = k := by
      unfold Registry.getByAPI
      rw [ne_eq, List.find?_eq_none]
      constructor
      · intro h
        by_cases hx : ∃ s ∈ r, s.api.group = g ∧ s.api.kind = k
        · exact hx
        · refine absurd ?_ h
          intro s hs
          simp only [decide_eq_true_eq]
          exact fun e => hx ⟨s, List.mem_reverse.1 hs, e⟩
      · rintro ⟨s, hs, h1, h2⟩ h
        exact h s (List.mem_reverse.2 hs) (by simp [h1, h2])
    rw [hget]
    constructor
    · rintro ⟨e, he, h1, h2⟩
      obtain ⟨g', _, rfl⟩ := List.mem_map.1 he
      subst h1
      obtain ⟨s, hs, rfl⟩ := List.mem_map.1 h2
      have := List.mem_filter.1 hs
      exact ⟨s, this.1, by simpa using this.2, rfl⟩
    · rintro ⟨s, hs, rfl, rfl⟩
      refine ⟨_, List.mem_map.2 ⟨s.api.group, (ho _).mem_iff.2 (((groups_spec r).2 _).2 ⟨s, hs, rfl⟩), rfl⟩, rfl, ?_⟩
      exact List.mem_map.2 ⟨s, List.mem_filter.2 ⟨hs, by simp⟩, rfl⟩

/-- **C95** (partial) The application lists exactly these, in some order of the groups. -/
theorem C95_application_partial {order : List Bytes → List Bytes} (ho : ∀ l, (order l).Perm l) :
    ∃ l, apiResources order appReg = .ret l ∧ l.Perm [
      ⟨b!"tmos.runtime.v1alpha1", [b!"ModuleDescriptors"], []⟩,
      ⟨b!"tmos.abci.v1alpha1", [b!"Stage", b!"BeginBlockState", b!"DeliverTxState", b!"CheckTxState",
        b!"InitChainInfo", b!"EndBlockState", b!"CurrentBlock", b!"ValidatorUpdates"], []⟩,
      ⟨b!"tmos.x.authn.v1alpha1", [b!"Account", b!"Params", b!"CurrentAccountNumber"], []⟩,
      ⟨b!"tmos.core.rbac.v1alpha1", [b!"Role", b!"RoleBinding", b!"Params"], []⟩,
      ⟨b!"tmos.x.bank.v1alpha1", [b!"Balance"], []⟩] := by
  refine ⟨_, resources_eq ho appReg, ?_⟩
  have := (ho appReg.groups).map fun g =>
    (⟨g, (appReg.filter fun s => s.api.group = g).map (·.api.kind), []⟩ : GroupResources)
  refine this.trans (List.Perm.of_eq ?_)
  decide

example : ∃ order : List Bytes → List Bytes, ∀ l, (order l).Perm l := ⟨id, fun _ => .refl _⟩

/-- **C95** (fails) No state transition is ever listed, although the application executes some. -/
theorem C95_fails (lib : Libs) {order : List Bytes → List Bytes} (ho : ∀ l, (order l).Perm l) :
    (appRouter lib).exec ≠ [] ∧ ∃ l, apiResources order appReg = .ret l ∧ l ≠ [] ∧ ∀ e ∈ l, e.transitions = [] := by
  refine ⟨by simp [appRouter], _, resources_eq ho appReg, ?_, ?_⟩
  · intro e
    have := List.map_eq_nil_iff.1 e
    have hp := ho appReg.groups
    rw [this] at hp
    exact absurd hp.symm.eq_nil (by decide)
  · intro e he
    obtain ⟨g, _, rfl⟩ := List.mem_map.1 he
    rfl

/-- **C95** (fails) The order of the groups is not the same in every answer. -/
theorem C95_order_fails : ∃ o₁ o₂ : List Bytes → List Bytes, (∀ l, (o₁ l).Perm l) ∧ (∀ l, (o₂ l).Perm l) ∧
    apiResources o₁ appReg ≠ apiResources o₂ appReg := by
  refine ⟨id, List.reverse, fun _ => .refl _, List.reverse_perm, ?_⟩
  rw [resources_eq (order := id) (fun _ => .refl _), resources_eq List.reverse_perm]
  intro h
  injection h with h
  exact absurd h (by decide)

/-! ## C96 -/

section
variable {O : Type} {reg : Registry} {jsonFails : O → Bool} {read : Bytes → Bytes → Except OrmErr O}

theorem cliGet_eq (ask : Bytes → Option (Nat × Option O)) (g k n : Bytes) (rest : List Bytes) :
    cliGet true ask (g :: k :: n :: rest) = .ret (match ask (objectPath g k n) with
      | none => none
      | some (code, v) => if code ≠ 0 then none else some v) := by
  have : b!"get" ++ b!"/" ++ g ++ b!"/" ++ k ++ b!"/" ++ n = objectPath g k n := by
    simp [objectPath, List.append_assoc]
  simp only [cliGet, if_true, clientGet, this]
  cases ask (objectPath g k n) <;> rfl

/-- **C96** (partial) With three or more arguments: if the group and the kind are registered and the
name has no slash, the object stored under the name is printed, and nothing but an error is reported if
there is none (or if the node cannot print it).  Missing: names with a slash, fewer arguments. -/
theorem C96_get_partial {sch : Schema} {group kind name : Bytes} (hg : 47 ∉ group) (hk : 47 ∉ kind)
    (hn : 47 ∉ name) (hs : reg.getByAPI group kind = some sch) (rest : List Bytes) :
    cliGet true (nodeAsk (handleQuery reg jsonFails read)) (group :: kind :: name :: rest) =
      .ret (match read sch.name name with
        | .error _ => none
        | .ok o => if jsonFails o then none else some (some o)) := by
  rw [cliGet_eq, nodeAsk, C53_partial reg jsonFails read hg hk hn hs]
  cases read sch.name name with
  | error e => rfl
  | ok o => cases hj : jsonFails o <;> simp [hj]

/-- **C96** For a group or kind that is not registered an error is reported. -/
theorem C96_unknown_kind {group kind name : Bytes} (hg : 47 ∉ group) (hk : 47 ∉ kind)
    (hs : reg.getByAPI group kind = none) (rest : List Bytes) :
    cliGet true (nodeAsk (handleQuery reg jsonFails read)) (group :: kind :: name :: rest) = .ret none := by
  have hsp := objectPath_split (id := name) hg hk
  cases hi : Bytes.splitOn 47 name with
  | nil =>
    exact absurd hi (by
      cases name with
      | nil => simp [Bytes.splitOn]
      | cons c r =>
        simp only [Bytes.splitOn]
        split
        · simp
        · split <;> simp)
  | cons x xs =>
    rw [hi] at hsp
    rw [cliGet_eq]
    simp only [nodeAsk, handleQuery, queryGet, hsp, hs, if_neg (show b!"get" ≠ b!"api_resources" by decide), if_true]
    rfl

/-- **C96** Without a usable configuration an error is reported and the node is not asked. -/
theorem C96_unconfigured (ask : Bytes → Option (Nat × Option O)) (g k n : Bytes) (rest : List Bytes) :
    cliGet false ask (g :: k :: n :: rest) = .ret none := rfl

/-- **C96** A configuration is usable exactly if the file can be read and parsed and names an endpoint. -/
theorem C96_config (file : Option Bytes) (parse : Bytes → Option Bytes) (e : Bytes) :
    getConfig file parse = some e ↔ (∃ t, file = some t ∧ parse t = some e) ∧ e ≠ [] := by
  unfold getConfig
  cases file with
  | none => simp
  | some t =>
    cases hp : parse t with
    | none => simp [hp]
    | some x =>
      by_cases hx : x = []
      · simp only [hp, hx, if_true, reduceCtorEq, false_iff]
        rintro ⟨⟨t', ht, h⟩, hne⟩
        cases ht
        rw [hp] at h
        injection h with h
        exact hne (h ▸ hx)
      · simp only [hp, hx, if_false, Option.some.injEq, exists_eq_left', ne_eq]
        constructor
        · rintro rfl; exact ⟨rfl, hx⟩
        · exact fun h => h.1

/-- **C96** (fails) With two arguments, which the command accepts, it crashes. -/
theorem C96_two_arguments_fails (configured : Bool) (ask : Bytes → Option (Nat × Option O)) (g k : Bytes) :
    cliGet configured ask [g, k] = .panic := rfl

/-- **C96** (fails) For a name with a slash the object is printed whose name is the part before it. -/
theorem C96_slash_fails {group kind a b : Bytes} (hg : 47 ∉ group) (hk : 47 ∉ kind) (ha : 47 ∉ a) :
    cliGet true (nodeAsk (handleQuery reg jsonFails read)) [group, kind, a ++ b!"/" ++ b] =
      cliGet true (nodeAsk (handleQuery reg jsonFails read)) [group, kind, a] := by
  rw [cliGet_eq, cliGet_eq]
  have h1 : Bytes.splitOn 47 (objectPath group kind (a ++ b!"/" ++ b)) =
      b!"get" :: group :: kind :: a :: Bytes.splitOn 47 b := by
    rw [objectPath_split hg hk, List.append_assoc]
    exact congrArg (b!"get" :: group :: kind :: ·) (splitOn_cons ha b)
  have h2 := objectPath_split (id := a) hg hk
  rw [splitOn_last ha] at h2
  simp only [nodeAsk, handleQuery, queryGet, h1, h2]

end

/-- **C96** (partial) In the application, in every history: `spfcli get` for an object type and a name
without a slash prints what is stored under the name, and reports an error if nothing is. -/
theorem C96_application_partial {lib : Libs} {m : World} {sch : Schema} (hs : sch ∈ appReg) {name : Bytes}
    (hn : 47 ∉ name) (hne : name ≠ []) (hj : ∀ o, m sch.name name = some o → lib.jsonFails o = false) (rest : List Bytes) :
    cliGet true (nodeAsk (handleQuery appReg lib.jsonFails (mapGet appReg m)))
      (sch.api.group :: sch.api.kind :: name :: rest) =
      .ret (match m sch.name name with
        | none => none
        | some o => some (some o)) := by
  obtain ⟨h1, h2, h3, h4⟩ := appReg_paths sch hs
  rw [C96_get_partial h1 h2 hn h3]
  simp only [mapGet, h4, if_neg hne]
  cases hm : m sch.name name with
  | none => rfl
  | some o => simp [hj o hm]

example : cliGet true (nodeAsk (handleQuery appReg (fun _ => false) fun t k =>
      if t = b!"tmos.x.bank.v1alpha1.Balance" ∧ k = b!"x" then .ok 7 else .error .notFound))
    [b!"tmos.x.bank.v1alpha1", b!"Balance", b!"x"] = .ret (some (some 7)) := by decide

/-- **C95** The kinds of a group are those registered with it, in order; a group without any is an error. -/
theorem C95_groups (r : Registry) (g : Bytes) :
    (r.kindsInGroup g = none ↔ ∀ s ∈ r, s.api.group ≠ g) ∧ ∀ ks, r.kindsInGroup g = some ks →
      ks = (r.filter fun s => s.api.group = g).map fun s => s.api.kind := by
  constructor
  · unfold Registry.kindsInGroup
    constructor
    · intro h s hs hg
      split at h
      · rename_i e
        have := List.map_eq_nil_iff.1 e
        exact List.filter_eq_nil_iff.1 this s hs (by simp [hg])
      · cases h
    · intro h
      rw [List.filter_eq_nil_iff.2 fun s hs => by simpa using h s hs]
      rfl
  · intro ks h
    unfold Registry.kindsInGroup at h
    split at h
    · cases h
    · cases h; rfl

end Verif.Props
