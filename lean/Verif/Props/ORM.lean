import Verif.Proofs.Sample
import Verif.Props.Codec
/-!
# Properties of the object store: C05, C08–C16

Histories, the map specification and the assumptions are in `Verif.Spec.Objects` and
`Verif.Spec.Assumptions`.
-/

namespace Verif.Props
open Verif Spec
variable {O : Type} [StateObject O]

/-! ## C08 -/

/-- **C08** Every history of operations returns what the map specification says, and afterwards
`Get` returns what the map holds. -/
theorem C08_store_is_typed_map {reg : Registry} {ops : List (Op O)} {rs : List (Except OrmErr Unit)}
    {s : Store O} (h : Reached reg ops rs s) :
    rs = (run reg Contents.empty ops).1 ∧
    ∀ ty pk, s.get ty pk =
      if reg.get ty = none then .error .schemaNotFound
      else if pk = [] then .error .emptyKey
      else match (run reg Contents.empty ops).2 ty pk with
        | some o => .ok o
        | none => .error .notFound := by
  obtain ⟨hi, hr, hrun⟩ := Reached.inv h
  refine ⟨by rw [hrun], fun ty pk => ?_⟩
  rw [hrun]
  simp only
  cases hg : reg.get ty with
  | none => rw [← hr] at hg; simp [Store.get, hg]
  | some sch =>
    rw [← hr] at hg
    simp only [reduceCtorEq, if_false]
    rw [view_eq hg]
    have hn := (Registry.get_mem hg).2
    unfold Store.get
    simp only [hg, objGet, saveKeyRaw]
    by_cases hz : pk = []
    · simp [hz]
    · have hz' : pk.length ≠ 0 := by simpa using hz
      simp only [if_neg hz, if_neg hz', hn]
      cases s.objects.get (ty ++ 47 :: pk) <;> rfl

/-- **C08** No operation on marshallable objects with encodable keys panics, in any history. -/
theorem C08_no_panic {reg : Registry} (hreg : RegOk reg) (ops : List (Op O))
    (hp : ∀ op ∈ ops, Physical reg op.obj) (he : ∀ op ∈ ops, Encodable reg op.obj) :
    ∃ rs s, runStore (fresh reg) ops = .ret (rs, s) := by
  have : ∀ (ops : List (Op O)) (s : Store O), Inv s → s.reg = reg →
      (∀ op ∈ ops, Physical reg op.obj) → (∀ op ∈ ops, Encodable reg op.obj) →
      ∃ rs s', runStore s ops = .ret (rs, s') := by
    intro ops
    induction ops with
    | nil => intro s _ _ _ _; exact ⟨_, _, rfl⟩
    | cons op ops ih =>
      intro s hi hr hp he
      have he0 := he op (by simp)
      rw [← hr] at he0
      have hp0 := hp op (by simp)
      rw [← hr] at hp0
      have : ∃ r s', exec s op = .ret (r, s') := by
        cases op with
        | create o => exact Inv.create_total hp0 he0
        | update o => exact hi.update_total hp0 he0
        | delete o => exact hi.delete_total he0.pk
      obtain ⟨r, s1, h1⟩ := this
      obtain ⟨i1, r1, _⟩ := exec_spec hi r s1 h1
      obtain ⟨rs, s2, h2⟩ := ih s1 i1 (r1.trans hr) (fun o ho => hp o (by simp [ho]))
        (fun o ho => he o (by simp [ho]))
      exact ⟨r :: rs, s2, by simp [runStore, h1, h2]⟩
  exact this ops _ (Inv.init hreg) rfl hp he

/-- A history with two types, a failing operation and a deletion. -/
def sampleOps : List (Op Msg) :=
  [.create (post b!"p1" b!"ann" 3), .create (post b!"p2" b!"bob" 3), .create (post b!"p1" b!"eve" 1),
   .update (post b!"p2" b!"ann" 4), .create (note 7 b!"hi"), .delete (post b!"p1" b!"" 0)]

theorem sampleOps_physical : ∀ op ∈ sampleOps, Physical sampleReg op.obj := by
  intro op h
  simp only [sampleOps, List.mem_cons, List.not_mem_nil, or_false] at h
  rcases h with rfl | rfl | rfl | rfl | rfl | rfl
  · exact post_physical (by decide) (by decide)
  · exact post_physical (by decide) (by decide)
  · exact post_physical (by decide) (by decide)
  · exact post_physical (by decide) (by decide)
  · exact note_physical _ _
  · exact post_physical (by decide) (by decide)

theorem sampleOps_encodable : ∀ op ∈ sampleOps, Encodable sampleReg op.obj := by
  intro op h
  simp only [sampleOps, List.mem_cons, List.not_mem_nil, or_false] at h
  rcases h with rfl | rfl | rfl | rfl | rfl | rfl
  · exact post_encodable ..
  · exact post_encodable ..
  · exact post_encodable ..
  · exact post_encodable ..
  · exact note_encodable ..
  · exact post_encodable ..

/-- The sample history is one to which the theorems of this file apply. -/
theorem sample_reached : ∃ rs s, Reached sampleReg sampleOps rs s := by
  obtain ⟨rs, s, h⟩ := C08_no_panic sampleReg_ok sampleOps sampleOps_physical sampleOps_encodable
  exact ⟨rs, s, sampleReg_ok, h⟩

/-! ## C09 -/

/-- **C09 (partial)** An operation that returns an error leaves the store as it was: every later
observation is the same.  Missing: schemas that list an indexed field twice (excluded by
`RegOk`), see `C09_duplicate_index_fails`. -/
theorem C09_failed_operation_changes_nothing_partial {reg : Registry} {ops : List (Op O)}
    {rs : List (Except OrmErr Unit)} {s s' : Store O} (h : Reached reg ops rs s) (op : Op O)
    (e : OrmErr) (hx : exec s op = .ret (.error e, s')) : s' = s := by
  obtain ⟨hi, hr, _⟩ := Reached.inv h
  exact (exec_spec hi _ _ hx).2.2.2 (by simp)

/-- The hypotheses are met: creating "p2" again after the sample history fails. -/
example : ∃ rs s s', Reached sampleReg sampleOps rs s ∧
    exec s (.create (post b!"p2" b!"x" 0)) = .ret (.error .alreadyExists, s') := by
  obtain ⟨rs, s, h⟩ := sample_reached
  obtain ⟨hi, hr, hrun⟩ := Reached.inv h
  have he : Encodable s.reg (post b!"p2" b!"x" 0) := by rw [hr]; exact post_encodable ..
  have hp : Physical s.reg (post b!"p2" b!"x" 0) := by
    rw [hr]; exact post_physical (by decide) (by decide)
  obtain ⟨r, s', hc⟩ := Inv.create_total (s := s) hp he
  have hs := (hi.create_spec hc).2.2.1
  have hv : view s = (run sampleReg Contents.empty sampleOps).2 := by rw [hrun]
  rw [hr, hv] at hs
  have : r = .error .alreadyExists := (congrArg Prod.fst hs).trans (by rfl)
  exact ⟨rs, s, s', h, by rw [← this]; exact hc⟩

/-- A type with the same secondary key listed twice. -/
def dupSchema : Schema := ⟨postApi, some (b!"id", .string), [⟨b!"creator", .string⟩, ⟨b!"creator", .string⟩]⟩

/-- **C09 is false** for schemas listing an indexed field twice: `Create` returns an error but
the object is stored (runtime/orm/indexes/store.go:41, runtime/orm/store.go:62-72). -/
theorem C09_duplicate_index_fails : ∃ (s' : Store Msg) (e : OrmErr),
    (fresh [dupSchema]).create (post b!"p" b!"c" 0) = .ret (.error e, s') ∧
      (fresh [dupSchema] : Store Msg).get postApi.name b!"p" = .error .notFound ∧
      s'.get postApi.name b!"p" = .ok (post b!"p" b!"c" 0) :=
  ⟨_, .secondaryExists, (by rfl), (by rfl), (by rfl)⟩

/-! ## C10 -/

/-- **C10** After any history the index contains an entry exactly for the indexed values of the
live objects. -/
theorem C10_index_mirrors_objects {reg : Registry} {ops : List (Op O)} {rs : List (Except OrmErr Unit)}
    {s : Store O} (h : Reached reg ops rs s) (ty field value pk : Bytes)
    (hlen : (IndexKey.marshal ⟨ty, field, value, pk⟩).length < maxLen) :
    s.index.has (IndexKey.marshal ⟨ty, field, value, pk⟩) = true ↔
      ∃ o sch i, (run reg Contents.empty ops).2 ty pk = some o ∧ reg.get ty = some sch ∧
        i ∈ sch.indexes ∧ i.name = field ∧ i.encodeFromObject o = .ret value := by
  obtain ⟨hi, hr, hrun⟩ := Reached.inv h
  have hv : (run reg Contents.empty ops).2 = view s := by rw [hrun]
  rw [hv]
  subst hr
  have e : IndexKey.marshal ⟨ty, field, value, pk⟩ = 0 :: (IndexKey.marshal ⟨ty, field, value, pk⟩).tail := rfl
  rw [e, hi.idx, ← e]
  constructor
  · rintro ⟨sch, pk', o, hl, hk⟩
    have hph := hi.live_phys hl
    obtain ⟨j, hj, ee⟩ := mem_ikeysOf.1 hk
    have := IndexKey.marshal_inj (indexKey_small_of_length (by rw [ee]; exact hlen))
      (indexKey_small_of_length hlen) ee
    simp only [IndexKey.mk.injEq] at this
    obtain ⟨e1, e2, e3, e4⟩ := this
    subst e4
    have hreg : s.reg.get ty = some sch := by
      rw [← e1]; exact Registry.get_of_mem hi.reg.names (Registry.get_mem hl.reg).1
    refine ⟨o, sch, j, ?_, hreg, hj, e2, by rw [hph.2.1 _ hj, e3]⟩
    rw [view_eq hreg, if_neg hph.1, ← e1]; exact hl.get
  · rintro ⟨o, sch, i, hvw, hreg, hm, rfl, henc⟩
    have hn := (Registry.get_mem hreg).2
    rw [view_eq hreg] at hvw
    split at hvw
    · cases hvw
    · rw [← hn] at hvw
      obtain ⟨hl, _, _, _, _⟩ := hi.live_of_get hreg hvw
      refine ⟨sch, pk, o, hl, mem_ikeysOf.2 ⟨i, hm, ?_⟩⟩
      have : idxVal i o = value := by simp [idxVal, henc]
      rw [this, hn]

/-- **C10** Clearing the indexes of a live object always succeeds: neither the "data corruption"
panic, nor "primary key not found", nor a decoding error. -/
theorem C10_clear_indexes_succeeds {reg : Registry} {ops : List (Op O)} {rs : List (Except OrmErr Unit)}
    {s : Store O} (h : Reached reg ops rs s) (o old : O) (sch : Schema) (pk : Bytes)
    (hreg : reg.get (StateObject.api o).name = some sch) (hpk : sch.encodePrimaryKey o = .ret pk)
    (hlive : (run reg Contents.empty ops).2 (StateObject.api o).name pk = some old) :
    ∃ index', clearIndexes s.index sch o = .ret (.ok (), index') := by
  obtain ⟨hi, hr, hrun⟩ := Reached.inv h
  have hv : (run reg Contents.empty ops).2 = view s := by rw [hrun]
  rw [hv] at hlive
  subst hr
  have hn := (Registry.get_mem hreg).2
  rw [view_eq hreg] at hlive
  split at hlive
  · cases hlive
  · rw [← hn] at hlive
    obtain ⟨hl, _, _, _, hph⟩ := hi.live_of_get hreg hlive
    obtain ⟨idx, h1, _⟩ := clearIndexes_spec (o := o) (hi.schemaOk hreg) hpk hph
      (fun hx => hi.plist _ _ _ hl hx)
    exact ⟨idx, h1⟩

/-! ## C11 -/

/-- The two ways of asking for the objects whose field `f` has value `v`. -/
def asksFor (opt : ListOptions) (f : Bytes) (v : Val) : Prop :=
  opt = { matchString := [(f, text v)] } ∨ ∃ a, argValue a = some v ∧ opt = { matchInterface := [(f, a)] }

/-- The primary keys of the live objects of type `ty` whose field `f` has value `v`. -/
def hits [StateObject O] (m : Contents O) (ty f : Bytes) (v : Val) (pk : Bytes) : Prop :=
  ∃ o, m ty pk = some o ∧ StateObject.field o f = v

theorem encodeValue_eq_iff {k : Kind} {v w : Val} {b : Bytes} (hv : kindOf v = some k) (hw : kindOf w = some k)
    (h : k.encodeValue v = .ret b) : k.encodeValue w = .ret b ↔ w = v :=
  ⟨fun e => (C04_encoding_injective k w v b hw hv e h), fun e => e ▸ h⟩

theorem kindOf_encodeString {k : Kind} {s : Bytes} {v : Val} (h : k.encodeString s = .ret (some v)) :
    kindOf v = some k := by
  cases k <;> simp only [Kind.encodeString, Out.ret.injEq, Option.map_eq_some_iff, Option.some.injEq, reduceCtorEq] at h
  all_goals first | (obtain ⟨_, _, rfl⟩ := h; rfl) | (subst h; rfl)

theorem kindOf_encodeInterface {k : Kind} {a : Arg} {v : Val} (h : k.encodeInterface a = .ret (some v)) :
    kindOf v = some k := by
  cases k <;> cases a <;> simp only [Kind.encodeInterface, Out.ret.injEq, Option.some.injEq, reduceCtorEq] at h <;>
    subst h <;> rfl

theorem prefixes_asked {sch : Schema} (hok : SchemaOk sch) {i : Indexer} (hm : i ∈ sch.indexes) {v : Val} {b : Bytes}
    (hk : kindOf v = some i.kind) (hb : i.kind.encodeValue v = .ret b) {opt : ListOptions}
    (ho : asksFor opt i.name v) :
    prefixesToScan sch opt = .ret (.ok [⟨sch.name, i.name, b, []⟩]) := by
  rcases ho with rfl | ⟨a, ha, rfl⟩
  · simp [prefixesToScan, prefixesInterface, prefixesString, Schema.indexer_of_mem hok hm,
      Indexer.encodeString, C06_text_agrees i.kind v hk, Out.encoded, hb]
  · have := (C06_interface_exact i.kind a v ⟨v, hk⟩).2 ⟨ha, hk⟩
    simp [prefixesToScan, prefixesInterface, prefixesString, Schema.indexer_of_mem hok hm,
      Indexer.encodeInterface, this, Out.encoded, hb]

theorem inv_list_exact {s : Store O} (hi : Inv s) (sch : Schema) (hs : sch ∈ s.reg)
    (hty : KeysTyped (view s) sch) (i : Indexer) (hm : i ∈ sch.indexes) (v : Val) (hk : kindOf v = some i.kind) (opt : ListOptions)
    (ho : asksFor opt i.name v)
    (hlen : ∀ b, i.kind.encodeValue v = .ret b → 25 + sch.name.length + i.name.length + b.length < maxLen) :
    (s.listKeys sch.name opt = .ret (.error .noResults) ∧ ∀ pk, ¬ hits (view s) sch.name i.name v pk) ∨
    ∃ ks, s.listKeys sch.name opt = .ret (.ok ks) ∧ ks ≠ [] ∧ StrictlyIncreasing ks ∧
      (∀ pk, pk ∈ ks ↔ hits (view s) sch.name i.name v pk) ∧
      s.list sch.name opt = .ret (.ok (ks.map fun pk => s.get sch.name pk)) ∧
      ∀ pk ∈ ks, ∃ o, s.get sch.name pk = .ok o ∧ view s sch.name pk = some o := by
  have hreg := Registry.get_of_mem hi.reg.names hs
  obtain ⟨b, hb⟩ := C04_encoding_total v i.kind hk
  have hpre := prefixes_asked (hi.schemaOk hreg) hm hk hb ho
  have hl2 : (IndexKey.marshal ⟨sch.name, i.name, b, []⟩).length < maxLen := by
    have := hlen b hb
    rw [IndexKey.marshal_eq]
    simp only [List.length_cons, List.length_append, lengthPrefixed, le64_length, List.length_nil]
    omega
  obtain ⟨g1, g2⟩ := hi.scan hreg hm hl2
  have hits_iff : ∀ pk, hits (view s) sch.name i.name v pk ↔
      ∃ o, view s sch.name pk = some o ∧ i.encodeFromObject o = .ret b := by
    intro pk
    simp only [hits, Indexer.encodeFromObject]
    constructor
    · rintro ⟨o, ho, h⟩
      exact ⟨o, ho, (encodeValue_eq_iff hk ((hty pk o ho).1 i hm) hb).2 h⟩
    · rintro ⟨o, ho, h⟩
      exact ⟨o, ho, (encodeValue_eq_iff hk ((hty pk o ho).1 i hm) hb).1 h⟩
  have hks : s.listKeys sch.name opt = match s.index.iteratePrefix (IndexKey.marshal ⟨sch.name, i.name, b, []⟩) with
      | [] => .ret (.error .noResults)
      | es => .ret (.ok (es.map (·.1))) := by
    simp only [Store.listKeys, hreg, listIndex, hpre, IndexKey.encode_of hl2]
    rfl
  generalize s.index.iteratePrefix (IndexKey.marshal ⟨sch.name, i.name, b, []⟩) = es at hks g1 g2
  cases es with
  | nil =>
    left
    refine ⟨hks, fun pk hp => ?_⟩
    have := (g2 pk).2 ((hits_iff pk).1 hp)
    simp at this
  | cons e es =>
    right
    refine ⟨_, hks, by simp, g1, fun pk => ?_, ?_, fun pk hp => ?_⟩
    · rw [hits_iff]; exact g2 pk
    · simp only [Store.list, hks]
    · obtain ⟨o, ho, _⟩ := (g2 pk).1 hp
      refine ⟨o, ?_, ho⟩
      unfold view at ho
      cases hg : s.get sch.name pk with
      | ok o' => rw [hg] at ho; cases ho; rfl
      | error e => rw [hg] at ho; cases ho

theorem run_written {reg : Registry} : ∀ (ops : List (Op O)) (m : Contents O) {ty pk : Bytes} {o : O},
    (run reg m ops).2 ty pk = some o → m ty pk = some o ∨ ∃ op ∈ ops, op.obj = o ∧ (StateObject.api o).name = ty := by
  intro ops
  induction ops with
  | nil => intro m ty pk o h; exact .inl h
  | cons op ops ih =>
    intro m ty pk o h
    rcases ih (step reg m op).2 h with h | ⟨op', h1, h2⟩
    · unfold step at h
      split at h
      · exact .inl h
      · rename_i ty' pk' hk
        have hty : ty' = (StateObject.api op.obj).name := by
          unfold keyOf at hk
          split at hk
          · cases hk
          · split at hk <;> cases hk
            rfl
        have key : ∀ {v}, (m.put ty' pk' (some v)) ty pk = some o → m ty pk = some o ∨ (v = o ∧ ty' = ty) := by
          intro v hv
          unfold Contents.put at hv
          split at hv
          · rename_i hc; cases hv; exact .inr ⟨rfl, hc.1.symm⟩
          · exact .inl hv
        cases op with
        | create v =>
          simp only [apply] at h
          split at h
          · exact .inl h
          · split at h
            · exact .inl h
            · rcases key h with h | ⟨rfl, rfl⟩
              · exact .inl h
              · exact .inr ⟨_, List.mem_cons_self, rfl, hty.symm⟩
        | update v =>
          simp only [apply] at h
          split at h
          · exact .inl h
          · split at h
            · rcases key h with h | ⟨rfl, rfl⟩
              · exact .inl h
              · exact .inr ⟨_, List.mem_cons_self, rfl, hty.symm⟩
            · exact .inl h
        | delete v =>
          simp only [apply] at h
          split at h
          · exact .inl h
          · split at h
            · have h : m.put ty' pk' none ty pk = some o := h
              unfold Contents.put at h
              split at h
              · cases h
              · exact .inl h
            · exact .inl h
    · exact .inr ⟨op', List.mem_cons_of_mem _ h1, h2⟩

/-- The key fields are not repeated if they are not in any object given to the store. -/
theorem keysTyped_run {reg : Registry} {ops : List (Op O)} {sch : Schema}
    (h : ∀ op ∈ ops, (StateObject.api op.obj).name = sch.name →
      (∀ i ∈ sch.indexes, kindOf (StateObject.field op.obj i.name) = some i.kind) ∧
      ∀ f k, sch.pk = some (f, k) → kindOf (StateObject.field op.obj f) = some k) :
    KeysTyped (run reg Contents.empty ops).2 sch := by
  intro pk o ho
  rcases run_written ops _ ho with h0 | ⟨op, hop, rfl, hn⟩
  · cases h0
  · exact h op hop hn

/-- **C11 (partial)** Listing by one indexed field: an error if no live object has the value;
otherwise the primary keys of exactly the live objects having it, in strictly increasing order (so
each once), and reading at each position succeeds.  Missing: key fields that are repeated fields
(excluded by `KeysTyped`), see `C11_repeated_field_fails`. -/
theorem C11_list_exact_partial {reg : Registry} {ops : List (Op O)} {rs : List (Except OrmErr Unit)}
    {s : Store O} (h : Reached reg ops rs s) (sch : Schema) (hs : sch ∈ reg)
    (hty : KeysTyped (run reg Contents.empty ops).2 sch) (i : Indexer)
    (hm : i ∈ sch.indexes) (v : Val) (hk : kindOf v = some i.kind) (opt : ListOptions)
    (ho : asksFor opt i.name v)
    (hlen : ∀ b, i.kind.encodeValue v = .ret b → 25 + sch.name.length + i.name.length + b.length < maxLen) :
    let m := (run reg Contents.empty ops).2
    (s.listKeys sch.name opt = .ret (.error .noResults) ∧ ∀ pk, ¬ hits m sch.name i.name v pk) ∨
    ∃ ks, s.listKeys sch.name opt = .ret (.ok ks) ∧ ks ≠ [] ∧ StrictlyIncreasing ks ∧
      (∀ pk, pk ∈ ks ↔ hits m sch.name i.name v pk) ∧
      s.list sch.name opt = .ret (.ok (ks.map fun pk => s.get sch.name pk)) ∧
      ∀ pk ∈ ks, ∃ o, s.get sch.name pk = .ok o ∧ m sch.name pk = some o := by
  obtain ⟨hi, hr, hrun⟩ := Reached.inv h
  have hv : (run reg Contents.empty ops).2 = view s := by rw [hrun]
  rw [hv] at hty
  simp only [hv]
  subst hr
  exact inv_list_exact hi sch hs hty i hm v hk opt ho hlen

/-- Non-vacuity: the sample history contains a post by "ann" (and none by "eve"), and both ways
of asking are available. -/
example : hits (run sampleReg Contents.empty sampleOps).2 postApi.name b!"creator" (.str b!"ann") b!"p2" ∧
    ¬ hits (run sampleReg Contents.empty sampleOps).2 postApi.name b!"creator" (.str b!"eve") b!"p1" ∧
    asksFor { matchString := [(b!"creator", b!"ann")] } b!"creator" (.str b!"ann") ∧
    asksFor { matchInterface := [(b!"likes", .uint64 4)] } b!"likes" (.uint64 4) := by
  refine ⟨⟨_, (by rfl), (by rfl)⟩, ?_, .inl rfl, .inr ⟨_, rfl, rfl⟩⟩
  rintro ⟨o, h, _⟩
  cases h

/-- Non-vacuity: no key field of the posts of the sample history is a repeated field. -/
theorem sample_keysTyped : KeysTyped (run sampleReg Contents.empty sampleOps).2 postSchema := by
  refine keysTyped_run fun op hop hn => ?_
  have hall : ∀ op ∈ sampleOps, (StateObject.api op.obj).name = postSchema.name →
      (∀ i ∈ postSchema.indexes, kindOf (StateObject.field op.obj i.name) = some i.kind) ∧
      kindOf (StateObject.field op.obj b!"id") = some .string := by decide
  obtain ⟨h1, h2⟩ := hall op hop hn
  exact ⟨h1, fun f k hk => by cases hk; exact h2⟩

/-- **C11 is false** for repeated fields: in Go a list value written as a string is its printed form,
so listing by that text finds an object whose field is a list and not that text. -/
theorem C11_repeated_field_fails : ∃ (s : Store Msg) (rs : List (Except OrmErr Unit)) (o : Msg),
    Reached sampleReg [.create o] rs s ∧ StateObject.field o b!"creator" = .unsupported b!"[ann bob]" ∧
    s.listKeys postApi.name { matchString := [(b!"creator", b!"[ann bob]")] } = .ret (.ok [b!"p"]) ∧
    ∀ pk, ¬ hits (run sampleReg Contents.empty [.create o]).2 postApi.name b!"creator" (.str b!"[ann bob]") pk := by
  refine ⟨_, _, ⟨postApi, [(b!"id", .str b!"p"), (b!"creator", .unsupported b!"[ann bob]"),
    (b!"likes", .uint64 3)]⟩, ⟨sampleReg_ok, (by rfl)⟩, (by rfl), (by rfl), ?_⟩
  rintro pk ⟨o, h, hf⟩
  rcases run_written _ _ h with h | ⟨op, hop, rfl, _⟩
  · cases h
  · rw [List.mem_singleton] at hop
    subst hop
    revert hf
    decide

/-! ## C12 -/

/-- The typed and textual conditions of a query, as pairs of field and value: condition `(f, v)`
is asked by the query. -/
def conditionOf (sch : Schema) (opt : ListOptions) (f : Bytes) (v : Val) : Prop :=
  ∃ i, sch.indexer f = some i ∧
    ((∃ a, (f, a) ∈ opt.matchInterface ∧ i.kind.encodeInterface a = .ret (some v)) ∨
     (∃ t, (f, t) ∈ opt.matchString ∧ i.kind.encodeString t = .ret (some v)))

/-- **C12 (partial)** A query with any number of conditions returns every live object meeting
all of them, and only objects meeting at least one of them.  Missing: that the returned objects
meet *all* conditions, which is false (`C12_second_condition_ignored_fails`). -/
theorem C12_list_complete_partial {reg : Registry} {ops : List (Op O)} {rs : List (Except OrmErr Unit)}
    {s : Store O} (h : Reached reg ops rs s) (sch : Schema) (hs : sch ∈ reg)
    (hty : KeysTyped (run reg Contents.empty ops).2 sch) (opt : ListOptions)
    (ks : List Bytes) (hk : s.listKeys sch.name opt = .ret (.ok ks)) :
    (∀ pk o, (run reg Contents.empty ops).2 sch.name pk = some o →
      (∀ f v, conditionOf sch opt f v → StateObject.field o f = v) → pk ∈ ks) ∧
    (∀ pk ∈ ks, ∃ o f v, (run reg Contents.empty ops).2 sch.name pk = some o ∧
      conditionOf sch opt f v ∧ StateObject.field o f = v) := by
  obtain ⟨hi, hr, hrun⟩ := Reached.inv h
  have hv : (run reg Contents.empty ops).2 = view s := by rw [hrun]
  rw [hv] at hty
  simp only [hv]
  subst hr
  have hreg := Registry.get_of_mem hi.reg.names hs
  simp only [Store.listKeys, hreg, listIndex] at hk
  cases hp : prefixesToScan sch opt with
  | panic => simp [hp] at hk
  | ret e =>
    cases e with
    | error e => simp [hp] at hk
    | ok l =>
      cases l with
      | nil => simp [hp] at hk
      | cons k rest =>
        simp only [hp] at hk
        cases hkk : k.encode with
        | panic => simp [hkk] at hk
        | ret pfx =>
        obtain ⟨rfl, hkl⟩ := IndexKey.encode_eq hkk
        simp only [hkk] at hk
        have hcond : ∃ i b v, i ∈ sch.indexes ∧ k = ⟨sch.name, i.name, b, []⟩ ∧
            i.kind.encodeValue v = .ret b ∧ conditionOf sch opt i.name v ∧ kindOf v = some i.kind := by
          obtain ⟨k1, k2, e, h1, h2⟩ := prefixesToScan_ok hp
          have hkm : k ∈ k1 ++ k2 := by rw [← e]; simp
          rcases List.mem_append.1 hkm with hkm | hkm
          · obtain ⟨c, hc, i, b, hii, he, rfl⟩ := (prefixesInterface_mem h1).2 k hkm
            have hs := Schema.indexer_some hii
            unfold Indexer.encodeInterface Out.encoded at he
            split at he
            · cases he
            · cases he
            · rename_i v hv
              split at he
              · cases he
              · rename_i b' hb
                simp only [Out.ret.injEq, Option.some.injEq] at he; subst he
                refine ⟨i, _, v, hs.1, rfl, hb, ⟨i, by rw [hs.2]; exact hii, .inl ⟨c.2, ?_, hv⟩⟩, kindOf_encodeInterface hv⟩
                rw [hs.2]; exact hc
          · obtain ⟨c, hc, i, b, hii, he, rfl⟩ := (prefixesString_mem h2).2 k hkm
            have hs := Schema.indexer_some hii
            unfold Indexer.encodeString Out.encoded at he
            split at he
            · cases he
            · cases he
            · rename_i v hv
              split at he
              · cases he
              · rename_i b' hb
                simp only [Out.ret.injEq, Option.some.injEq] at he; subst he
                refine ⟨i, _, v, hs.1, rfl, hb, ⟨i, by rw [hs.2]; exact hii, .inr ⟨c.2, ?_, hv⟩⟩, kindOf_encodeString hv⟩
                rw [hs.2]; exact hc
        obtain ⟨i, b, v, him, rfl, hb, hcv, hkv⟩ := hcond
        obtain ⟨_, g2⟩ := hi.scan hreg him hkl
        have hks : ks = (s.index.iteratePrefix (IndexKey.marshal ⟨sch.name, i.name, b, []⟩)).map (·.1) := by
          generalize s.index.iteratePrefix (IndexKey.marshal ⟨sch.name, i.name, b, []⟩) = es at hk
          cases es with
          | nil => simp at hk
          | cons e es => simp only [Out.ret.injEq, Except.ok.injEq] at hk; exact hk.symm
        rw [hks]
        constructor
        · intro pk o ho hall
          refine (g2 pk).2 ⟨o, ho, ?_⟩
          rw [Indexer.encodeFromObject, hall _ _ hcv]; exact hb
        · intro pk hpk
          obtain ⟨o, ho, he⟩ := (g2 pk).1 hpk
          exact ⟨o, i.name, v, ho, hcv, (encodeValue_eq_iff hkv ((hty pk o ho).1 i him) hb).1 he⟩

omit [StateObject O] in
/-- **C12** A query naming a field that is not indexed, or a value its field cannot have, is
rejected with an error. -/
theorem C12_bad_condition_rejected (s : Store O) (sch : Schema) (hs : s.reg.get sch.name = some sch)
    (opt : ListOptions) (f t : Bytes) (hf : (f, t) ∈ opt.matchString)
    (hbad : sch.indexer f = none ∨ ∃ i, sch.indexer f = some i ∧ i.kind.encodeString t = .ret none) :
    ∀ ks, s.listKeys sch.name opt ≠ .ret (.ok ks) := by
  intro ks hk
  simp only [Store.listKeys, hs, listIndex] at hk
  cases hp : prefixesToScan sch opt with
  | panic => simp [hp] at hk
  | ret e =>
    cases e with
    | error e => simp [hp] at hk
    | ok l =>
      obtain ⟨k1, k2, rfl, h1, h2⟩ := prefixesToScan_ok hp
      clear hk hp h1
      generalize opt.matchString = ms at hf h2
      induction ms generalizing k2 with
      | nil => cases hf
      | cons c ms ih =>
        obtain ⟨g, u⟩ := c
        simp only [prefixesString] at h2
        cases hi : sch.indexer g with
        | none => simp [hi] at h2
        | some i =>
          simp only [hi] at h2
          cases he : i.encodeString u with
          | panic => simp [he] at h2
          | ret ob =>
            cases ob with
            | none => simp [he] at h2
            | some b =>
              simp only [he] at h2
              cases hr : prefixesString sch ms with
              | panic => simp [hr] at h2
              | ret e =>
                cases e with
                | error e => simp [hr] at h2
                | ok k3 =>
                  rcases List.mem_cons.1 hf with heq | hf
                  · injection heq with e1 e2
                    subst e1; subst e2
                    rcases hbad with hb | ⟨j, hb, hb2⟩
                    · rw [hb] at hi; cases hi
                    · rw [hb] at hi; cases hi
                      simp [Indexer.encodeString, hb2, Out.encoded] at he
                  · exact ih k3 hf hr

example : postSchema.indexer b!"id" = none ∧
    ∃ i, postSchema.indexer b!"likes" = some i ∧ i.kind.encodeString b!"many" = .ret none :=
  ⟨rfl, _, rfl, rfl⟩

/-- A condition of a query that can be met: the field is indexed and can have the value. -/
def ValidConditions (sch : Schema) (opt : ListOptions) : Prop :=
  (∀ c ∈ opt.matchInterface, ∃ i v b, sch.indexer c.1 = some i ∧ i.kind.encodeInterface c.2 = .ret (some v) ∧
    i.kind.encodeValue v = .ret b) ∧
  (∀ c ∈ opt.matchString, ∃ i v b, sch.indexer c.1 = some i ∧ i.kind.encodeString c.2 = .ret (some v) ∧
    i.kind.encodeValue v = .ret b)

/-- The query asking for the first condition only; typed conditions come before textual ones. -/
def firstOnly (opt : ListOptions) : ListOptions :=
  match opt.matchInterface with
  | c :: _ => { matchInterface := [c] }
  | [] => { matchString := opt.matchString.take 1 }

omit [StateObject O] in
/-- **C12 (partial)** What a query answers, exactly: if all conditions can be met, the answer is that
to the first condition alone (which `C11_list_exact_partial` describes).  Missing: the further
conditions, `C12_second_condition_ignored_fails`.  `C12_bad_condition_rejected` and
`C12_bad_typed_condition_rejected` are about conditions that cannot be met. -/
theorem C12_first_condition_partial (s : Store O) (sch : Schema) (opt : ListOptions)
    (hs : s.reg.get sch.name = some sch) (hv : ValidConditions sch opt) :
    s.listKeys sch.name opt = s.listKeys sch.name (firstOnly opt) := by
  have hI : ∀ l : List (Bytes × Arg), (∀ c ∈ l, ∃ i v b, sch.indexer c.1 = some i ∧
      i.kind.encodeInterface c.2 = .ret (some v) ∧ i.kind.encodeValue v = .ret b) →
      ∃ ks, prefixesInterface sch l = .ret (.ok ks) ∧ ∀ c r, l = c :: r → ∃ k ks', ks = k :: ks' ∧
        prefixesInterface sch [c] = .ret (.ok [k]) := by
    intro l
    induction l with
    | nil => intro _; exact ⟨[], rfl, by intro c r h; cases h⟩
    | cons c l ih =>
      intro h
      obtain ⟨i, v, b, h1, h2, h3⟩ := h c List.mem_cons_self
      obtain ⟨ks, h4, _⟩ := ih fun c hc => h c (List.mem_cons_of_mem _ hc)
      have h5 : i.encodeInterface c.2 = .ret (some b) := by
        simp only [Indexer.encodeInterface, h2, Out.encoded, h3]
      refine ⟨_, by simp only [prefixesInterface, h1, h5, h4]; rfl, ?_⟩
      rintro c' r e
      injection e with e1 e2
      subst e1
      exact ⟨_, _, rfl, by simp only [prefixesInterface, h1, h5]⟩
  have hS : ∀ l : List (Bytes × Bytes), (∀ c ∈ l, ∃ i v b, sch.indexer c.1 = some i ∧
      i.kind.encodeString c.2 = .ret (some v) ∧ i.kind.encodeValue v = .ret b) →
      ∃ ks, prefixesString sch l = .ret (.ok ks) ∧ ∀ c r, l = c :: r → ∃ k ks', ks = k :: ks' ∧
        prefixesString sch [c] = .ret (.ok [k]) := by
    intro l
    induction l with
    | nil => intro _; exact ⟨[], rfl, by intro c r h; cases h⟩
    | cons c l ih =>
      intro h
      obtain ⟨i, v, b, h1, h2, h3⟩ := h c List.mem_cons_self
      obtain ⟨ks, h4, _⟩ := ih fun c hc => h c (List.mem_cons_of_mem _ hc)
      have h5 : i.encodeString c.2 = .ret (some b) := by
        simp only [Indexer.encodeString, h2, Out.encoded, h3]
      refine ⟨_, by simp only [prefixesString, h1, h5, h4]; rfl, ?_⟩
      rintro c' r e
      injection e with e1 e2
      subst e1
      exact ⟨_, _, rfl, by simp only [prefixesString, h1, h5]⟩
  obtain ⟨k1, h1, f1⟩ := hI _ hv.1
  obtain ⟨k2, h2, f2⟩ := hS _ hv.2
  simp only [Store.listKeys, hs, listIndex, prefixesToScan, h1, h2]
  cases hm : opt.matchInterface with
  | cons c r =>
    obtain ⟨k, ks', rfl, h3⟩ := f1 c r hm
    simp only [firstOnly, hm, h3, prefixesString, List.append_nil, List.cons_append]
  | nil =>
    rw [hm] at h1
    simp only [prefixesInterface, Out.ret.injEq, Except.ok.injEq] at h1
    subst h1
    cases hm2 : opt.matchString with
    | nil =>
      rw [hm2] at h2
      simp only [prefixesString, Out.ret.injEq, Except.ok.injEq] at h2
      subst h2
      simp only [firstOnly, hm, hm2, List.take_nil, prefixesInterface, prefixesString, List.append_nil]
    | cons c r =>
      obtain ⟨k, ks', rfl, h3⟩ := f2 c r hm2
      simp only [firstOnly, hm, hm2, List.take_succ_cons, List.take_zero, prefixesInterface, h3, List.nil_append]

omit [StateObject O] in
/-- **C12** The same for conditions with typed values. -/
theorem C12_bad_typed_condition_rejected (s : Store O) (sch : Schema) (hs : s.reg.get sch.name = some sch)
    (opt : ListOptions) (f : Bytes) (a : Arg) (hf : (f, a) ∈ opt.matchInterface)
    (hbad : sch.indexer f = none ∨ ∃ i, sch.indexer f = some i ∧ i.kind.encodeInterface a = .ret none) :
    ∀ ks, s.listKeys sch.name opt ≠ .ret (.ok ks) := by
  intro ks hk
  simp only [Store.listKeys, hs, listIndex] at hk
  cases hp : prefixesToScan sch opt with
  | panic => simp [hp] at hk
  | ret e =>
    cases e with
    | error e => simp [hp] at hk
    | ok l =>
      obtain ⟨k1, k2, rfl, h1, h2⟩ := prefixesToScan_ok hp
      clear hk hp h2
      generalize opt.matchInterface = ms at hf h1
      induction ms generalizing k1 with
      | nil => cases hf
      | cons c ms ih =>
        obtain ⟨g, u⟩ := c
        simp only [prefixesInterface] at h1
        cases hi : sch.indexer g with
        | none => simp [hi] at h1
        | some i =>
          simp only [hi] at h1
          cases he : i.encodeInterface u with
          | panic => simp [he] at h1
          | ret ob =>
            cases ob with
            | none => simp [he] at h1
            | some b =>
              simp only [he] at h1
              cases hr : prefixesInterface sch ms with
              | panic => simp [hr] at h1
              | ret e =>
                cases e with
                | error e => simp [hr] at h1
                | ok k3 =>
                  rcases List.mem_cons.1 hf with heq | hf
                  · injection heq with e1 e2
                    subst e1; subst e2
                    rcases hbad with hb | ⟨j, hb, hb2⟩
                    · rw [hi] at hb; cases hb
                    · rw [hi] at hb
                      cases hb
                      simp [Indexer.encodeInterface, Out.encoded, hb2] at he
                  · exact ih _ hf hr

/-- Non-vacuity: two conditions that can be met, and one that cannot. -/
example : ValidConditions postSchema { matchString := [(b!"creator", b!"ann"), (b!"likes", b!"9")] } ∧
    firstOnly { matchString := [(b!"creator", b!"ann"), (b!"likes", b!"9")] } =
      { matchString := [(b!"creator", b!"ann")] } ∧
    (∃ i, postSchema.indexer b!"likes" = some i ∧ i.kind.encodeInterface (.str b!"x") = .ret none) := by
  refine ⟨⟨by simp, ?_⟩, rfl, _, (by rfl), (by rfl)⟩
  intro c hc
  rcases List.mem_cons.1 hc with rfl | hc
  · exact ⟨_, _, _, (by rfl), (by rfl), (by rfl)⟩
  · rw [List.mem_singleton] at hc
    subst hc
    exact ⟨_, _, _, (by rfl), (by rfl), (by rfl)⟩

/-- **C12 is false**: the second condition is ignored (runtime/orm/indexes/list.go:20-25). -/
theorem C12_second_condition_ignored_fails :
    ∃ (ops : List (Op Msg)) (rs : List (Except OrmErr Unit)) (s : Store Msg) (opt : ListOptions)
      (ks : List Bytes) (o : Msg), Reached sampleReg ops rs s ∧
      s.listKeys postApi.name opt = .ret (.ok ks) ∧ b!"p" ∈ ks ∧
      s.get postApi.name b!"p" = .ok o ∧
      conditionOf postSchema opt b!"likes" (.uint64 9) ∧
      StateObject.field o b!"likes" ≠ .uint64 9 :=
  ⟨[.create (post b!"p" b!"ann" 3)], _, _,
    { matchString := [(b!"creator", b!"ann"), (b!"likes", b!"9")] }, _, _,
    ⟨sampleReg_ok, (by rfl)⟩,
    (by rfl), List.mem_singleton.2 (by rfl), (by rfl), ⟨_, (by rfl), .inr ⟨b!"9", by simp, (by rfl)⟩⟩,
    by simp [StateObject.field, post]⟩

/-! ## C13 -/

omit [StateObject O] in
/-- **C13 (partial)** The range of a query has no influence on the result, so the property holds
for the unrestricted range only.  Missing: any actual range, for which it is false
(`C13_range_ignored_fails`). -/
theorem C13_range_without_effect_partial (s : Store O) (ty : Bytes) (opt : ListOptions) (a b : Nat) :
    s.listKeys ty { opt with start := a, stop := b } = s.listKeys ty opt := rfl

/-- **C13 is false**: asking for positions [0, 1) of two matching objects returns both. -/
theorem C13_range_ignored_fails :
    ∃ (ops : List (Op Msg)) (rs : List (Except OrmErr Unit)) (s : Store Msg),
      Reached sampleReg ops rs s ∧
      s.listKeys postApi.name { matchString := [(b!"creator", b!"ann")], start := 0, stop := 1 } =
        .ret (.ok [b!"p", b!"q"]) :=
  ⟨[.create (post b!"p" b!"ann" 3), .create (post b!"q" b!"ann" 3)], _, _,
    ⟨sampleReg_ok, (by rfl)⟩, (by rfl)⟩

/-! ## C14 -/

/-- **C14** An operation on an object changes neither what is read under any other type or
primary key, nor the listing of any other type. -/
theorem C14_other_objects_unaffected {reg : Registry} {ops : List (Op O)} {rs : List (Except OrmErr Unit)}
    {s s' : Store O} (h : Reached reg ops rs s) (op : Op O)
    (r : Except OrmErr Unit) (hx : exec s op = .ret (r, s')) :
    (∀ ty pk, keyOf reg op.obj ≠ some (ty, pk) → s'.get ty pk = s.get ty pk) ∧
    (∀ ty opt, ty ≠ (StateObject.api op.obj).name →
      s'.listKeys ty opt = s.listKeys ty opt ∧ s'.list ty opt = s.list ty opt) := by
  obtain ⟨hi, hr, hrun⟩ := Reached.inv h
  subst hr
  obtain ⟨hi', hr', hstep, _⟩ := exec_spec hi _ _ hx
  have hother : ∀ ty pk, keyOf s.reg op.obj ≠ some (ty, pk) → view s' ty pk = view s ty pk := by
    intro ty pk hne
    have hvw : view s' = (Spec.step s.reg (view s) op).2 := by rw [← hstep]
    rw [hvw]
    unfold Spec.step
    cases hk : keyOf s.reg op.obj with
    | none => rfl
    | some kk =>
      obtain ⟨ty', pk'⟩ := kk
      have hne' : ¬ (ty = ty' ∧ pk = pk') := by
        rintro ⟨rfl, rfl⟩; exact hne hk
      simp only
      cases op <;> simp only [Spec.apply] <;> (repeat' split) <;> simp [Contents.put, hne']
  have hget : ∀ ty pk, keyOf s.reg op.obj ≠ some (ty, pk) → s'.get ty pk = s.get ty pk := by
    intro ty pk hne
    have hvw := hother ty pk hne
    cases hg : s.reg.get ty with
    | none => simp [Store.get, hg, hr']
    | some sch =>
      have hn := (Registry.get_mem hg).2
      rw [view_eq (by rw [hr']; exact hg), view_eq hg] at hvw
      simp only [Store.get, hr', hg, objGet, saveKeyRaw]
      by_cases hz : pk = []
      · simp [hz]
      · have hz' : pk.length ≠ 0 := by simpa using hz
        simp only [if_neg hz] at hvw
        simp only [if_neg hz', hn, hvw]
  refine ⟨hget, fun ty opt hty => ?_⟩
  have hkey : ∀ pk, keyOf s.reg op.obj ≠ some (ty, pk) := by
    intro pk hk
    unfold keyOf at hk
    split at hk
    · cases hk
    · split at hk
      · simp only [Option.some.injEq, Prod.mk.injEq] at hk; exact hty hk.1.symm
      · cases hk
  have hlk : s'.listKeys ty opt = s.listKeys ty opt := by
    simp only [Store.listKeys, hr']
    cases hg : s.reg.get ty with
    | none => rfl
    | some sch =>
      have hn := (Registry.get_mem hg).2
      simp only [listIndex]
      cases hp : prefixesToScan sch opt with
      | panic => rfl
      | ret e =>
        cases e with
        | error e => rfl
        | ok l =>
          cases l with
          | nil => rfl
          | cons k ks =>
            simp only
            obtain ⟨i, b, him, rfl⟩ := prefixesToScan_mem hp k (by simp)
            rw [hn]
            cases hkk : IndexKey.encode ⟨ty, i.name, b, []⟩ with
            | panic => rfl
            | ret pfx =>
            obtain ⟨rfl, hkl⟩ := IndexKey.encode_eq hkk
            simp only
            obtain ⟨a1, a2⟩ := hi.scan hg him hkl
            obtain ⟨b1, b2⟩ := hi'.scan (by rw [hr']; exact hg) him hkl
            have : (s'.index.iteratePrefix (IndexKey.marshal ⟨ty, i.name, b, []⟩)).map (·.1) =
                (s.index.iteratePrefix (IndexKey.marshal ⟨ty, i.name, b, []⟩)).map (·.1) := by
              refine increasing_ext b1 a1 fun pk => ?_
              rw [a2, b2]
              simp only [hother ty pk (hkey pk)]
            revert this
            generalize s'.index.iteratePrefix (IndexKey.marshal ⟨ty, i.name, b, []⟩) = u
            generalize s.index.iteratePrefix (IndexKey.marshal ⟨ty, i.name, b, []⟩) = w
            intro this
            cases u <;> cases w <;> simp_all
  refine ⟨hlk, ?_⟩
  simp only [Store.list, hlk]
  cases s.listKeys ty opt with
  | panic => rfl
  | ret e =>
    cases e with
    | error e => rfl
    | ok ks =>
      simp only [Out.ret.injEq, Except.ok.injEq]
      exact List.map_congr_left fun pk _ => hget ty pk (hkey pk)

/-- Non-vacuity: after the sample history, deleting a note succeeds and leaves post "p2". -/
example : ∃ rs s s', Reached sampleReg sampleOps rs s ∧
    exec s (.delete (note 7 b!"")) = .ret (.ok (), s') ∧ s.get postApi.name b!"p2" = .ok (post b!"p2" b!"ann" 4) := by
  obtain ⟨rs, s, h⟩ := sample_reached
  obtain ⟨hi, hr, hrun⟩ := Reached.inv h
  have hv : view s = (run sampleReg Contents.empty sampleOps).2 := by rw [hrun]
  obtain ⟨r, s', hc⟩ := hi.delete_total (o := note 7 b!"") (by rw [hr]; exact (note_encodable 7 b!"").pk)
  have hs := (hi.delete_spec hc).2.2.1
  rw [hr, hv] at hs
  have : r = .ok () := (congrArg Prod.fst hs).trans (by rfl)
  refine ⟨rs, s, s', h, by rw [← this]; exact hc, ?_⟩
  rw [(C08_store_is_typed_map h).2]
  rfl

/-! ## C05 at the level of the store -/

/-- **C05 (partial)** An object created with a string primary key `p` shorter than 128 bytes is
found under `p`, and it stays so as long as no operation addresses it.  Missing: strings of 128
bytes or more, for which it is false (`C05_long_string_key_fails`). -/
theorem C05_found_under_its_key_partial {reg : Registry} {ops : List (Op O)}
    {rs : List (Except OrmErr Unit)} {s s' : Store O} (h : Reached reg ops rs s) (o : O) (sch : Schema)
    (hreg : reg.get (StateObject.api o).name = some sch) (f p : Bytes)
    (hpk : sch.pk = some (f, .string)) (hf : StateObject.field o f = .str p) (hlt : p.length < 128)
    (hc : s.create o = .ret (.ok (), s')) :
    s'.get (StateObject.api o).name p = .ok o := by
  obtain ⟨hi, hr, _⟩ := Reached.inv h
  subst hr
  obtain ⟨_, hr', hstep, _⟩ := hi.create_spec hc
  have henc : sch.encodePrimaryKey o = .ret p := by
    simp only [Schema.encodePrimaryKey, hpk, hf]
    exact (C05_string_key_is_identifier_iff p).1.2 hlt
  have hvw : view s' = (Spec.step s.reg (view s) (.create o)).2 := by rw [← hstep]
  have hok : (Spec.step s.reg (view s) (.create o)).1 = .ok () := by rw [← hstep]
  simp only [Spec.step, keyOf, Op.obj, hreg, henc, Spec.apply] at hvw hok
  split at hok
  · cases hok
  · rename_i hz
    split at hok
    · cases hok
    · rename_i hn
      simp only [if_neg hz, if_neg hn] at hvw
      have : view s' (StateObject.api o).name p = some o := by rw [hvw]; simp [Contents.put]
      unfold view at this
      cases hg : s'.get (StateObject.api o).name p with
      | ok o' => rw [hg] at this; cases this; rfl
      | error e => rw [hg] at this; cases this

example : ∃ s', (fresh sampleReg).create (post b!"p" b!"c" 0) = .ret (.ok (), s') ∧
    Reached (O := Msg) sampleReg [] [] (fresh sampleReg) :=
  ⟨_, (by rfl), sampleReg_ok, rfl⟩

/-- **C05 is false** for every string key `p` of 128 bytes or more: right after its creation the
object is not found under `p` (pkg/protoutils/kindencoder/kindencoder.go:57-65 drops only one
byte of the length prefix). -/
theorem C05_long_string_key_fails (p : Bytes) (h1 : 128 ≤ p.length) (h2 : p.length < 2 ^ 60) :
    ∃ s' : Store Msg, (fresh sampleReg).create (post p b!"c" 0) = .ret (.ok (), s') ∧
      s'.get postApi.name p = .error .notFound := by
  have hr : Reached (O := Msg) sampleReg [] [] (fresh sampleReg) := ⟨sampleReg_ok, rfl⟩
  obtain ⟨hi, _, _⟩ := Reached.inv hr
  have he : Encodable (fresh sampleReg : Store Msg).reg (post p b!"c" 0) := post_encodable ..
  obtain ⟨r, s', hc⟩ := Inv.create_total (s := fresh sampleReg) (post_physical h2 (by decide)) he
  obtain ⟨hi', hr', hstep, _⟩ := hi.create_spec hc
  have hne : (appendBytes p).drop 1 ≠ [] := by
    intro e
    have := congrArg List.length e
    simp only [appendBytes, List.length_drop, List.length_append, List.length_nil] at this
    have := appendVarint_length_pos p.length
    omega
  have hk : keyOf (fresh sampleReg : Store Msg).reg (post p b!"c" 0) =
      some (postApi.name, (appendBytes p).drop 1) := rfl
  simp only [Spec.step, Op.obj, hk, Spec.apply, if_neg hne, view_init] at hstep
  simp only [Contents.empty, Option.isSome_none, Bool.false_eq_true, if_false, Prod.mk.injEq] at hstep
  obtain ⟨rfl, hv⟩ := hstep
  refine ⟨s', hc, ?_⟩
  have hreg : s'.reg.get postApi.name = some postSchema := by rw [hr']; rfl
  have hp0 : p ≠ [] := by rintro rfl; simp at h1
  have hv2 : view s' postApi.name p = none := by
    rw [hv]; simp only [Contents.put, true_and]
    rw [if_neg (fun e => appendBytes_drop_long h1 e.symm)]
    rfl
  rw [view_eq hreg, if_neg hp0] at hv2
  simp only [Store.get, hreg, objGet, saveKeyRaw]
  rw [if_neg (by simpa using hp0)]
  have hnm : postSchema.name = postApi.name := rfl
  simp only [hnm, hv2]

example : 128 ≤ (List.replicate 128 (97 : UInt8)).length := by simp

/-! ## C15 -/

/-- An object conforms to a descriptor: every field of a kind usable as a key holds one value of
that kind (in particular, the field is not repeated). -/
def Conforms [StateObject O] (d : MsgDesc) (o : O) : Prop :=
  ∀ f ∈ d.fields, f.kind ∈ Spec.keyKinds → kindOf (StateObject.field o f.json) = some f.kind

/-- **C15 (partial)** After any history over registered types, creating a conforming,
marshallable object of a type whose registration succeeded, with a free non-empty primary key,
succeeds.  Missing: secondary keys listed twice (excluded by `RegOk` in `Reached`) and repeated
fields as keys (excluded by `Conforms`); for those the property is false, see the theorems
ending in `_fails`. -/
theorem C15_registered_type_usable_partial {reg : Registry} {ops : List (Op O)}
    {rs : List (Except OrmErr Unit)} {s : Store O} (h : Reached reg ops rs s)
    (env : DescEnv) (fuel : Nat) (d : MsgDesc) (def_ : SchemaDef) (o : O) (sch : Schema)
    (hparse : parseObjectSchema env fuel (StateObject.api o) d def_ = some (.ok sch)) (hmem : sch ∈ reg)
    (hc : Conforms d o) (hm : StateObject.marshalPanics o = false) (hp : Physical reg o)
    (pk : Bytes) (hpk : sch.encodePrimaryKey o = .ret pk) (hne : pk ≠ [])
    (hfree : (run reg Contents.empty ops).2 (StateObject.api o).name pk = none) :
    ∃ s', s.create o = .ret (.ok (), s') := by
  obtain ⟨hi, hr, hrun⟩ := Reached.inv h
  have hv : (run reg Contents.empty ops).2 = view s := by rw [hrun]
  rw [hv] at hfree
  subst hr
  obtain ⟨g1, g2, g3, g4, _⟩ := parseObjectSchema_ok hparse
  have hreg : s.reg.get (StateObject.api o).name = some sch := by
    have := Registry.get_of_mem hi.reg.names hmem
    rw [Schema.name, g1] at this; exact this
  have he : Encodable s.reg o := by
    refine ⟨hm, fun sch' h' => ?_, fun sch' h' => ?_⟩
    · rw [hreg] at h'; cases h'; exact ⟨pk, hpk⟩
    · rw [hreg] at h'; cases h'
      intro i hii
      obtain ⟨f, hf, hfn, hfk, hfe⟩ := g3 i hii
      have := hc f hf (keyKind_of_hasEncoder hfe (parseObjectSchema_kinds hparse f hf).2)
      rw [hfn, hfk] at this
      exact C04_encoding_total _ _ this
  obtain ⟨r, s', hcr⟩ := Inv.create_total hp he
  have hs := (hi.create_spec hcr).2.2.1
  simp only [Spec.step, keyOf, Op.obj, hreg, hpk, Spec.apply, if_neg hne, hfree, Option.isSome_none,
    Bool.false_eq_true, if_false] at hs
  have : r = .ok () := congrArg Prod.fst hs
  subst this
  exact ⟨s', hcr⟩

/-- **C15** What registration accepts: either a singleton without keys, or a named primary key
field and secondary key fields of the message, all of kinds that can be keys; the schema records
exactly the fields of the definition. -/
theorem C15_accepted_definition (env : DescEnv) (fuel : Nat) (api : APIDef) (d : MsgDesc)
    (def_ : SchemaDef) (sch : Schema) (h : parseObjectSchema env fuel api d def_ = some (.ok sch)) :
    sch.api = api ∧
    ((def_.singleton = true ∧ def_.primaryKey = [] ∧ def_.secondaryKeys = [] ∧ sch.pk = none ∧ sch.indexes = []) ∨
     (def_.singleton = false ∧ def_.primaryKey ≠ [] ∧
      (∃ f ∈ d.fields, f.json = def_.primaryKey ∧ f.kind ∈ Spec.keyKinds ∧ sch.pk = some (f.json, f.kind)) ∧
      sch.indexes.map (·.name) = def_.secondaryKeys ∧
      ∀ i ∈ sch.indexes, ∃ f ∈ d.fields, f.json = i.name ∧ f.kind = i.kind ∧ f.kind ∈ Spec.keyKinds)) := by
  obtain ⟨g1, g2, g3, g4, _, _, hv⟩ := parseObjectSchema_ok h
  have hk := parseObjectSchema_kinds h
  refine ⟨g1, ?_⟩
  rcases g4 with ⟨hs, hp⟩ | ⟨hs, f, hf, hfn, hp, he⟩
  · left
    simp only [SchemaDef.validate, hs, Bool.true_and, decide_eq_true_eq] at hv
    split at hv
    · cases hv
    · rename_i h1
      split at hv
      · cases hv
      · rename_i h2
        have h2' : def_.secondaryKeys = [] := by simpa using h2
        refine ⟨hs, by simpa using h1, h2', hp, ?_⟩
        rw [h2'] at g2
        simpa using g2
  · right
    simp only [SchemaDef.validate, hs, Bool.false_and, Bool.false_eq_true, if_false, Bool.not_false,
      Bool.true_and, decide_eq_true_eq] at hv
    split at hv
    · cases hv
    · rename_i h1
      refine ⟨hs, h1, ⟨f, hf, hfn, keyKind_of_hasEncoder he (hk f hf).2, by rw [hfn]; exact hp⟩, g2, ?_⟩
      intro i hi
      obtain ⟨f, hf, hfn, hfk, he⟩ := g3 i hi
      exact ⟨f, hf, hfn, hfk, keyKind_of_hasEncoder he (hk f hf).2⟩

/-- Descriptor of the sample type. -/
def postDesc : MsgDesc := ⟨b!"test.Post", [⟨b!"id", .string, .single, []⟩, ⟨b!"creator", .string, .single, []⟩,
  ⟨b!"likes", .uint64, .single, []⟩]⟩

/-- The hypotheses are met by the sample type. -/
example (env : DescEnv) : parseObjectSchema env 1 postApi postDesc
      { primaryKey := b!"id", secondaryKeys := [b!"creator", b!"likes"] } = some (.ok postSchema) ∧
    Conforms postDesc (post b!"p9" b!"x" 1) := by
  refine ⟨?_, ?_⟩
  · have h1 : postDesc.fields.any FieldDesc.isMap = false := by decide
    have h2 := hasMap_eq env 0 postDesc
    have h3 := hasKinds_eq (env := env) (fuel := 0) h1 unsupportedKinds
    rw [h1] at h2
    simp only [parseObjectSchema, h2, h3]
    rfl
  · intro f hf _
    simp only [postDesc, List.mem_cons, List.not_mem_nil, or_false] at hf
    rcases hf with rfl | rfl | rfl <;> rfl

/-- **C15** Registration refuses a type name that is already registered, so registries built by
registration have each name once. -/
theorem C15_names_registered_once (r r' : Registry) (sch : Schema) (hr : (r.map Schema.name).Nodup)
    (h : r.add sch = .ok r') : (r'.map Schema.name).Nodup ∧ sch.name ∉ r.map Schema.name := by
  unfold Registry.add at h
  cases hg : r.get sch.name with
  | some x => simp [hg] at h
  | none =>
    simp only [hg] at h
    injection h with h; subst h
    have hnot : sch.name ∉ r.map Schema.name := by
      intro hm
      obtain ⟨t, ht, e⟩ := List.mem_map.1 hm
      have := Registry.get_of_mem hr ht
      rw [e, hg] at this; cases this
    refine ⟨?_, hnot⟩
    rw [List.map_append, List.nodup_append]
    refine ⟨hr, by simp, ?_⟩
    intro a ha b hb e
    simp at hb
    rw [← hb, ← e] at hnot
    exact hnot ha

/-- **C15 is false**: a schema listing a secondary key twice registers, but no object can be
created without an error. -/
theorem C15_duplicate_secondary_key_fails (env : DescEnv) :
    parseObjectSchema env 1 postApi postDesc
      { primaryKey := b!"id", secondaryKeys := [b!"creator", b!"creator"] } = some (.ok dupSchema) ∧
    ∀ p c n, p ≠ [] → p.length < 2 ^ 60 → c.length < 2 ^ 60 → ∃ s', (fresh [dupSchema] : Store Msg).create (post p c n) = .ret (.error .secondaryExists, s') := by
  refine ⟨?_, ?_⟩
  · have h1 : postDesc.fields.any FieldDesc.isMap = false := by decide
    have h2 := hasMap_eq env 0 postDesc
    have h3 := hasKinds_eq (env := env) (fuel := 0) h1 unsupportedKinds
    rw [h1] at h2
    simp only [parseObjectSchema, h2, h3]
    rfl
  · intro p c n hp hpl hcl
    have hlen : (IndexKey.marshal ⟨dupSchema.name, b!"creator", (appendBytes c).drop 1, (appendBytes p).drop 1⟩).length < maxLen := by
      rw [IndexKey.marshal_eq, maxLen_eq]
      have h1 := appendVarint_length_le p.length
      have h2 := appendVarint_length_le c.length
      have h3 : dupSchema.name.length = 9 := rfl
      simp only [List.length_cons, List.length_append, lengthPrefixed, le64_length, List.length_drop,
        appendBytes, h3, List.length_nil]
      omega
    have hreg : (fresh [dupSchema] : Store Msg).reg.get (StateObject.api (post p c n)).name = some dupSchema := rfl
    have hpk : dupSchema.encodePrimaryKey (post p c n) = .ret ((appendBytes p).drop 1) := rfl
    have hx : ∀ i ∈ dupSchema.indexes, i = ⟨b!"creator", .string⟩ := by decide
    have hv : (⟨b!"creator", .string⟩ : Indexer).encodeFromObject (post p c n) = .ret ((appendBytes c).drop 1) := rfl
    have hz : ((appendBytes p).drop 1).length ≠ 0 := by
      simp only [appendBytes, List.length_drop, List.length_append]
      have := appendVarint_length_pos p.length
      have : 0 < p.length := List.length_pos_iff.2 hp
      omega
    have hm : StateObject.marshalPanics (post p c n) = false := rfl
    have hhas : ∀ k, (fresh [dupSchema] : Store Msg).objects.has k = false := fun _ => rfl
    simp only [Store.create, hreg, objCreate, saveKey, hpk, saveKeyRaw, if_neg hz, hhas, hm,
      Bool.false_eq_true, if_false, indexObject]
    have hi : dupSchema.hasIndexes = true := rfl
    have hl : dupSchema.indexes = [⟨b!"creator", .string⟩, ⟨b!"creator", .string⟩] := rfl
    have hemp : ∀ k, (fresh [dupSchema] : Store Msg).index.has k = false := fun _ => rfl
    simp only [hi, Bool.not_true, Bool.false_eq_true, if_false, hl, indexLoop, hv, IndexKey.encode_of hlen, hemp, KV.has_set,
      decide_true, Bool.true_or, if_true]
    exact ⟨_, rfl⟩

/-- A type whose primary key is a repeated field. -/
def listKeyDesc : MsgDesc := ⟨b!"test.Post", [⟨b!"id", .uint64, .list, []⟩]⟩

/-- **C15 is false**: a schema whose primary key is a repeated field registers, but creating any
object of it panics (in Go: accessing a list value as a number). -/
theorem C15_repeated_field_key_fails (env : DescEnv) :
    parseObjectSchema env 1 postApi listKeyDesc { primaryKey := b!"id" } =
      some (.ok ⟨postApi, some (b!"id", .uint64), []⟩) ∧
    ∀ (o : Msg) (t : Bytes), o.api = postApi → StateObject.field o b!"id" = .unsupported t →
      (fresh [⟨postApi, some (b!"id", .uint64), []⟩]).create o = .panic := by
  refine ⟨?_, ?_⟩
  · have h1 : listKeyDesc.fields.any FieldDesc.isMap = false := by decide
    have h2 := hasMap_eq env 0 listKeyDesc
    have h3 := hasKinds_eq (env := env) (fuel := 0) h1 unsupportedKinds
    rw [h1] at h2
    simp only [parseObjectSchema, h2, h3]
    rfl
  · intro o t ho hf
    have hreg : (fresh [⟨postApi, some (b!"id", .uint64), []⟩] : Store Msg).reg.get (StateObject.api o).name =
        some ⟨postApi, some (b!"id", .uint64), []⟩ := by
      show Registry.get _ o.api.name = _
      rw [ho]; rfl
    simp only [Store.create, hreg, objCreate, saveKey, Schema.encodePrimaryKey, hf, Kind.encodeValue]

/-! ## C16 -/

/-- **C16 (partial)** Registration is refused if the message itself has a map field or a field of
an unsupported kind, and it always terminates.  Missing: nested messages, which are not looked at
(`C16_nested_shapes_accepted_fails`). -/
theorem C16_top_level_rejected_partial (env : DescEnv) (fuel : Nat) (api : APIDef) (d : MsgDesc)
    (def_ : SchemaDef) :
    parseObjectSchema env (fuel + 1) api d def_ ≠ none ∧
    ((∃ f ∈ d.fields, f.isMap = true ∨ f.kind ∉ Spec.supportedKinds) →
      ∃ e, parseObjectSchema env (fuel + 1) api d def_ = some (.error e)) := by
  have hm := hasMap_eq env fuel d
  constructor
  · unfold parseObjectSchema
    split
    · simp
    · rw [hm]
      cases ha : d.fields.any FieldDesc.isMap with
      | true => simp
      | false =>
        simp only [hasKinds_eq ha]
        cases unsupportedKinds.any fun k => d.fields.any fun f => decide (f.kind = k) with
        | true => simp
        | false =>
          simp only
          split
          · simp
          · split
            · simp
            · split
              · simp
              · split <;> simp
  · rintro ⟨f, hf, hbad⟩
    unfold parseObjectSchema
    split
    · exact ⟨_, rfl⟩
    · rw [hm]
      cases ha : d.fields.any FieldDesc.isMap with
      | true => exact ⟨_, rfl⟩
      | false =>
        have : (unsupportedKinds.any fun k => d.fields.any fun f => decide (f.kind = k)) = true := by
          rcases hbad with hb | hb
          · have h2 : d.fields.any FieldDesc.isMap = true := List.any_eq_true.2 ⟨f, hf, hb⟩
            rw [ha] at h2; cases h2
          · have hb : f.kind ∈ unsupportedKinds := by
              revert hb; cases f.kind <;> decide
            exact List.any_eq_true.2 ⟨f.kind, hb, List.any_eq_true.2 ⟨f, hf, by simp⟩⟩
        simp only [hasKinds_eq ha, this]
        exact ⟨_, rfl⟩

/-- A descriptor graph where the nested message has a map field and a float field. -/
def nestedEnv : DescEnv := fun _ =>
  ⟨b!"test.Inner", [⟨b!"m", .message, .map .string .string [], []⟩, ⟨b!"x", .float, .single, []⟩]⟩

/-- A message with a nested message. -/
def outerDesc : MsgDesc := ⟨b!"test.Outer", [⟨b!"id", .string, .single, []⟩,
  ⟨b!"inner", .message, .single, b!"test.Inner"⟩]⟩

/-- **C16 is false**: a map field and a float field inside a nested message are accepted
(pkg/protoutils/desc/desc.go:18-39 does not descend, 66 tests the wrong message). -/
theorem C16_nested_shapes_accepted_fails (fuel : Nat) :
    parseObjectSchema nestedEnv (fuel + 1) ⟨b!"test", b!"Outer"⟩ outerDesc { primaryKey := b!"id" } =
      some (.ok ⟨⟨b!"test", b!"Outer"⟩, some (b!"id", .string), []⟩) := by
  have h1 : outerDesc.fields.any FieldDesc.isMap = false := by decide
  have h2 := hasMap_eq nestedEnv fuel outerDesc
  have h3 := hasKinds_eq (env := nestedEnv) (fuel := fuel) h1 unsupportedKinds
  rw [h1] at h2
  simp only [parseObjectSchema, h2, h3]
  rfl

/-! ## C63 -/

/-- **C63 fails**: the databases remember more than the objects: after creating and deleting a
post nothing is stored, but the index database still has the list of its index keys. -/
theorem C63_fails : ∃ rs, ∃ s : Store Msg,
    Reached sampleReg [.create (post b!"p" b!"ann" 1), .delete (post b!"p" b!"ann" 1)] rs s ∧
    (∀ ty pk, s.get ty pk = (fresh sampleReg : Store Msg).get ty pk) ∧
    s.index ≠ (fresh sampleReg : Store Msg).index := by
  refine ⟨_, _, ⟨sampleReg_ok, (by rfl)⟩, ?_, by decide⟩
  intro ty pk
  rfl

/-- **C63, what holds**: after any two histories that leave the same visible objects, the object
databases are the same and the same index entries exist.  Missing: the index key lists of
deleted objects. -/
theorem C63_databases_from_contents_partial {reg : Registry} {ops₁ ops₂ : List (Op O)}
    {rs₁ rs₂ : List (Except OrmErr Unit)} {s₁ s₂ : Store O} (h₁ : Reached reg ops₁ rs₁ s₁)
    (h₂ : Reached reg ops₂ rs₂ s₂) (hv : ∀ ty pk, s₁.get ty pk = s₂.get ty pk) :
    (∀ key, s₁.objects.get key = s₂.objects.get key) ∧
    (∀ t, s₁.index.has (0 :: t) = s₂.index.has (0 :: t)) := by
  obtain ⟨hi₁, hr₁, -⟩ := Reached.inv h₁
  obtain ⟨hi₂, hr₂, -⟩ := Reached.inv h₂
  have hview : view s₁ = view s₂ := by funext ty pk; simp only [view, hv]
  have key : ∀ {a b : Store O}, Inv a → a.reg = reg → b.reg = reg → view a = view b →
      ∀ k o, a.objects.get k = some o → b.objects.get k = some o := by
    intro a b ha hra hrb hab k o hk
    obtain ⟨sch, pk, hg, -, hne, rfl, -⟩ := ha.objs k o hk
    have hn := (Registry.get_mem hg).2
    have hg' : a.reg.get sch.name = some sch := by rw [hn]; exact hg
    have hgb : b.reg.get sch.name = some sch := by rw [hrb, ← hra]; exact hg'
    have h1 := view_eq hg' pk
    have h2 := view_eq hgb pk
    rw [if_neg hne] at h1 h2
    rw [← h2, ← hab, h1, hk]
  have hobj : ∀ k, s₁.objects.get k = s₂.objects.get k := by
    intro k
    cases h : s₁.objects.get k with
    | some o => exact (key hi₁ hr₁ hr₂ hview k o h).symm
    | none =>
      cases h' : s₂.objects.get k with
      | none => rfl
      | some o => rw [key hi₂ hr₂ hr₁ hview.symm k o h'] at h; cases h
  refine ⟨hobj, fun t => ?_⟩
  rw [Bool.eq_iff_iff, hi₁.idx, hi₂.idx]
  constructor
  · rintro ⟨sch, pk, o, hl, hm⟩
    exact ⟨sch, pk, o, ⟨by rw [hr₂, ← hr₁]; exact hl.reg, hl.enc, by rw [← hobj]; exact hl.get⟩, hm⟩
  · rintro ⟨sch, pk, o, hl, hm⟩
    exact ⟨sch, pk, o, ⟨by rw [hr₁, ← hr₂]; exact hl.reg, hl.enc, by rw [hobj]; exact hl.get⟩, hm⟩

/-- Two different histories with the same result. -/
example : ∃ rs₁ rs₂, ∃ s₁ s₂ : Store Msg,
    Reached sampleReg [.create (post b!"p" b!"ann" 1)] rs₁ s₁ ∧
    Reached sampleReg [.create (post b!"p" b!"bob" 1), .update (post b!"p" b!"ann" 1)] rs₂ s₂ ∧
    s₁.get postApi.name b!"p" = s₂.get postApi.name b!"p" :=
  ⟨_, _, _, _, ⟨sampleReg_ok, (by rfl)⟩, ⟨sampleReg_ok, (by rfl)⟩, (by rfl)⟩

end Verif.Props
