import Verif.Proofs.CodegenNames
import Verif.Model.GenFiles
import Verif.Props.ORM
import Verif.Props.Http
/-!
# Generated code

* **C92** The client generated for a state object finds the object with the given primary key.
* **C93** Generated code declares every name once.
* **C94** The generated definitions are those of the annotations, and they can be registered.
-/

namespace Verif.Props
open Spec

variable {O : Type} [StateObject O]

/-! ## C92 -/

theorem parse_pk {env : DescEnv} {fuel : Nat} {api : APIDef} {d : MsgDesc} {o : SchemaDef} {sch : Schema}
    (h : parseObjectSchema env fuel api d o = some (.ok sch)) (hs : o.singleton = false) :
    ∃ x, d.fields.find? (fun f => f.json = o.primaryKey) = some x ∧ sch.pk = some (o.primaryKey, x.kind) := by
  unfold parseObjectSchema at h
  split at h
  · cases h
  · cases hm : hasMap env fuel d with
    | none => simp [hm] at h
    | some bm =>
      cases bm with
      | true => simp [hm] at h
      | false =>
        cases hk : hasKinds env fuel d unsupportedKinds with
        | none => simp [hm, hk] at h
        | some bk =>
          cases bk with
          | true => simp [hm, hk] at h
          | false =>
            cases hf : d.fields.find? (fun f => f.json = o.primaryKey) with
            | none => simp [hm, hk, hs, hf] at h
            | some x =>
              refine ⟨x, rfl, ?_⟩
              cases he : x.kind.hasEncoder with
              | false => simp [hm, hk, hs, hf, he] at h
              | true =>
                simp only [hm, hk, hs, hf, he, if_true, Bool.false_eq_true, if_false] at h
                split at h
                · injection h with h; injection h with h; rw [← h]
                · split at h
                  · cases h
                  · injection h with h; injection h with h; rw [← h]

theorem goTypeOf_string {k : Kind} : goTypeOf k = some b!"string" ↔ k = .string := by
  cases k <;> decide

theorem goTypeOf_bytes {k : Kind} : goTypeOf k = some b!"[]byte" ↔ k = .bytes := by
  cases k <;> decide

/-- **C92** The generated `Get` has an identifier to ask for exactly when the primary key is a string
or bytes. -/
theorem C92_kinds (k : Kind) (t : Bytes) (h : goTypeOf k = some t) :
    metaIDConstructor t ≠ [] ↔ k = .string ∨ k = .bytes := by
  cases k <;> simp only [goTypeOf, Option.some.injEq, reduceCtorEq] at h <;> subst h <;> decide

/-- What is generated for the `Get` of an object. -/
theorem mem_getByKey {f : GenFile} (hn : GoNamesOk f) {m : GenMsg} {d : SchemaDef} (hm : m ∈ f.messages)
    (hd : m.object = some d) {l : List Decl} (hg : genFile f = .ret (some l)) {obj p t c : Bytes}
    (h : Decl.getByKey m.lowerClient obj p t c ∈ l) :
    d.singleton = false ∧ obj = m.goName ∧ p = d.primaryKey ∧ c = metaIDConstructor t ∧
      ∃ x, m.fields.find? (fun f => f.json = d.primaryKey) = some x ∧ goTypeOf x.kind = some t := by
  obtain ⟨_, h2, rfl⟩ := genFile_some.1 hg
  rw [fileDecls, List.mem_append, List.mem_append] at h
  rcases h with h | h | h
  · obtain ⟨m', hm', h⟩ := List.mem_flatMap.1 h
    have hmm : m' = m := by
      have hx : (m.lowerClient, b!"Get") ∈ (msgDecls f m').filterMap declMethod :=
        List.mem_filterMap.2 ⟨_, h, rfl⟩
      exact inj_of_names hn.2 _ hm' _ hm
        (recvOf_disjoint (hn.1 _ hm') (hn.1 _ hm) (msg_methods_of hx) (.inr (.inl rfl)))
    subst hmm
    unfold msgDecls at h
    rw [hd] at h
    obtain ⟨k, hk⟩ := parseSaveInfo_some.2 (h2 _ hm d hd).2
    simp only [hk, Option.getD_some] at h
    cases k with
    | none => simp [objectClient] at h
    | some kt =>
      obtain ⟨k, t'⟩ := kt
      simp only [objectClient, List.mem_append, List.mem_cons, List.not_mem_nil, or_false, reduceCtorEq,
        false_or, Decl.getByKey.injEq] at h
      obtain ⟨_, rfl, rfl, rfl, rfl⟩ := h
      unfold parseSaveInfo at hk
      split at hk
      · cases hk
      · rename_i hs
        split at hk
        · cases hk
        · cases hf : m'.fields.find? (fun f => f.json = d.primaryKey) with
          | none => simp [hf] at hk
          | some x =>
            cases ht : goTypeOf x.kind with
            | none => simp [hf, ht] at hk
            | some t' =>
              simp only [hf, ht, Option.some.injEq, Prod.mk.injEq] at hk
              obtain ⟨rfl, rfl⟩ := hk
              exact ⟨by simpa using hs, rfl, rfl, rfl, x, rfl, ht⟩
  · obtain ⟨o, _, h⟩ := List.mem_map.1 h
    cases h
  · simp [genClientSet] at h

/-- **C92** (partial) Let a client have been generated for an object whose schema is registered as it
was generated.  Whatever happened to the store before: the client's `Get(v)` returns an object
exactly when it is stored and its key field is `v`.  Missing are keys of other kinds than strings and
bytes, empty keys and keys of 128 bytes and more (see `C92_fails`, `C05_long_string_key_fails`). -/
theorem C92_get_partial {f : GenFile} (hn : GoNamesOk f) {m : GenMsg} {d : SchemaDef} (hm : m ∈ f.messages)
    (hd : m.object = some d) {l : List Decl} (hg : genFile f = .ret (some l)) {obj p t c : Bytes}
    (hget : Decl.getByKey m.lowerClient obj p t c ∈ l)
    {env : DescEnv} {fuel : Nat} {sch : Schema}
    (hparse : parseObjectSchema env fuel (apiOf f m) (descOf f m) d = some (.ok sch))
    {reg : Registry} {ops : List (Op O)} {rs : List (Except OrmErr Unit)} {s : Store O}
    (h : Reached reg ops rs s) (hreg : sch ∈ reg) (hty : KeysTyped (run reg Contents.empty ops).2 sch)
    {v : Val} {id : Bytes} (hid : metaID c v = some id) (hne : id ≠ []) (hlt : id.length < 128) (o : O) :
    s.get (apiOf f m).name id = .ok o ↔
      ∃ pk, (run reg Contents.empty ops).2 (apiOf f m).name pk = some o ∧ StateObject.field o p = v := by
  obtain ⟨hs, rfl, rfl, rfl, x, hx, ht⟩ := mem_getByKey hn hm hd hg hget
  obtain ⟨x', hx', hpk⟩ := parse_pk hparse hs
  have hxx : x' = x := by
    have : (descOf f m).fields = m.fields := rfl
    rw [this, hx] at hx'
    exact (Option.some.inj hx').symm
  subst hxx
  obtain ⟨ha, _⟩ := parseObjectSchema_ok hparse
  have hnm : sch.name = (apiOf f m).name := by rw [Schema.name, ha]
  -- the identifier is the encoded key
  have hkv : kindOf v = some x'.kind ∧ x'.kind.encodeValue v = .ret id := by
    unfold metaID at hid
    split at hid
    · split at hid
      · rename_i hc
        injection hid with hid
        subst hid
        have : t = b!"string" := by
          unfold metaIDConstructor at hc
          split at hc
          · assumption
          · split at hc <;> exact absurd hc (by decide)
        rw [this] at ht
        rw [goTypeOf_string.1 ht]
        exact ⟨rfl, (C05_string_key_is_identifier_iff _).1.2 hlt⟩
      · cases hid
    · split at hid
      · rename_i hc
        injection hid with hid
        subst hid
        have : t = b!"[]byte" := by
          unfold metaIDConstructor at hc
          split at hc
          · exact absurd hc (by decide)
          · split at hc
            · assumption
            · exact absurd hc (by decide)
        rw [this] at ht
        rw [goTypeOf_bytes.1 ht]
        exact ⟨rfl, (C05_string_key_is_identifier_iff _).2.2 hlt⟩
      · cases hid
    · cases hid
  obtain ⟨hi, hr, hrun⟩ := Reached.inv h
  have hv : (run reg Contents.empty ops).2 = view s := by rw [hrun]
  have hmap := (C08_store_is_typed_map h).2 (apiOf f m).name id
  have hgets : reg.get (apiOf f m).name = some sch := by
    subst hr
    rw [← hnm]
    exact Registry.get_of_mem hi.reg.names hreg
  rw [hgets] at hmap
  simp only [reduceCtorEq, if_false, hne] at hmap
  have henc : ∀ pk o, (run reg Contents.empty ops).2 (apiOf f m).name pk = some o →
      x'.kind.encodeValue (StateObject.field o d.primaryKey) = .ret pk := by
    intro pk o ho
    rw [hv] at ho
    subst hr
    rw [view_eq hgets] at ho
    split at ho
    · cases ho
    · rw [← hnm] at ho
      have := (hi.live_of_get (hnm ▸ hgets) ho).1.enc
      simpa [Schema.encodePrimaryKey, hpk] using this
  constructor
  · intro hok
    rw [hok] at hmap
    cases hc : (run reg Contents.empty ops).2 (apiOf f m).name id with
    | none => rw [hc] at hmap; cases hmap
    | some o' =>
      rw [hc] at hmap
      injection hmap with hmap
      subst hmap
      refine ⟨id, hc, ?_⟩
      have h1 := henc _ _ hc
      have h2 := (hty id o (hnm ▸ hc)).2 _ _ hpk
      exact (encodeValue_eq_iff hkv.1 h2 hkv.2).1 h1
  · rintro ⟨pk, hc, hfv⟩
    have h1 := henc _ _ hc
    rw [hfv, hkv.2] at h1
    injection h1 with h1
    subst h1
    rw [hmap, hc]

/-- **C92** The client generated for a singleton asks for the key under which it is stored. -/
theorem C92_singleton {f : GenFile} {m : GenMsg} {d : SchemaDef} (hm : m ∈ f.messages)
    (hd : m.object = some d) (hs : d.singleton = true) {l : List Decl} (hg : genFile f = .ret (some l))
    {env : DescEnv} {fuel : Nat} {sch : Schema}
    (hparse : parseObjectSchema env fuel (apiOf f m) (descOf f m) d = some (.ok sch))
    {reg : Registry} {ops : List (Op O)} {rs : List (Except OrmErr Unit)} {s : Store O}
    (h : Reached reg ops rs s) (hreg : sch ∈ reg) (o : O) :
    Decl.getSingleton m.lowerClient m.goName ∈ l ∧
    (s.get (apiOf f m).name b!"unique" = .ok o ↔
      ∃ pk, (run reg Contents.empty ops).2 (apiOf f m).name pk = some o) := by
  obtain ⟨_, h2, rfl⟩ := genFile_some.1 hg
  constructor
  · rw [fileDecls, List.mem_append]
    refine .inl (List.mem_flatMap.2 ⟨m, hm, ?_⟩)
    have hk : (parseSaveInfo m d).getD none = none := by simp [parseSaveInfo, hs]
    simp [msgDecls, hd, hk, objectClient]
  · obtain ⟨ha, _, _, hp, _⟩ := parseObjectSchema_ok hparse
    have hpk : sch.pk = none := by
      rcases hp with ⟨_, h⟩ | ⟨h, _⟩
      · exact h
      · rw [hs] at h; cases h
    have hnm : sch.name = (apiOf f m).name := by rw [Schema.name, ha]
    obtain ⟨hi, hr, hrun⟩ := Reached.inv h
    have hv : (run reg Contents.empty ops).2 = view s := by rw [hrun]
    have hmap := (C08_store_is_typed_map h).2 (apiOf f m).name b!"unique"
    have hgets : reg.get (apiOf f m).name = some sch := by
      subst hr
      rw [← hnm]
      exact Registry.get_of_mem hi.reg.names hreg
    rw [hgets] at hmap
    have hne : b!"unique" ≠ [] := by decide
    simp only [reduceCtorEq, if_false, hne] at hmap
    constructor
    · intro hok
      rw [hok] at hmap
      cases hc : (run reg Contents.empty ops).2 (apiOf f m).name b!"unique" with
      | none => rw [hc] at hmap; cases hmap
      | some o' =>
        rw [hc] at hmap
        injection hmap with hmap
        exact ⟨_, hmap ▸ hc⟩
    · rintro ⟨pk, hc⟩
      have henc : pk = b!"unique" := by
        have ho := hc
        rw [hv] at ho
        subst hr
        rw [view_eq hgets] at ho
        split at ho
        · cases ho
        · rw [← hnm] at ho
          have := (hi.live_of_get (hnm ▸ hgets) ho).1.enc
          simpa [Schema.encodePrimaryKey, hpk, eq_comm] using this
      subst henc
      rw [hmap, hc]

/-- The balances of the application: the message as it is annotated. -/
def balanceMsg : GenMsg :=
  { name := b!"Balance", goName := b!"Balance",
    fields := [⟨b!"address", .string, .single, []⟩, ⟨b!"balance", .message, .list, b!"tmos.core.coin.v1alpha1.Coin"⟩],
    object := some { primaryKey := b!"address" } }

/-- **C92** (partial) In the application: whatever happened to the store before, the generated client
of the bank module returns an object for an address of 1 to 127 bytes exactly when it is stored and its
address is that one. -/
theorem C92_balance_partial {ops : List (Op Obj)} {rs : List (Except OrmErr Unit)} {s : Store Obj}
    (h : Reached appReg ops rs s) (addr : Bytes) (hne : addr ≠ []) (hlt : addr.length < 128) (o : Obj) :
    s.get b!"tmos.x.bank.v1alpha1.Balance" addr = .ok o ↔
      ∃ pk, (run appReg Contents.empty ops).2 b!"tmos.x.bank.v1alpha1.Balance" pk = some o ∧
        StateObject.field o b!"address" = .str addr := by
  have hn : GoNamesOk gen_x_bank_v1alpha1_bank := by
    refine ⟨?_, by decide⟩
    have : ∀ m ∈ gen_x_bank_v1alpha1_bank.messages, m.goName.head?.any (fun c => 65 ≤ c && c ≤ 90) = true := by decide
    intro m hm
    have := this m hm
    cases hg : m.goName with
    | nil => rw [hg] at this; cases this
    | cons c r =>
      rw [hg] at this
      simp only [List.head?_cons, Option.any_some, Bool.and_eq_true, decide_eq_true_eq] at this
      exact ⟨c, r, rfl, this⟩
  obtain ⟨hi, hr, hrun⟩ := Reached.inv h
  have hv : (run appReg Contents.empty ops).2 = view s := by rw [hrun]
  have hs : (⟨Obj.api (.balance [] []), some (b!"address", .string), []⟩ : Schema) ∈ appReg := by decide
  have hparse : parseObjectSchema (fun n => ⟨n, []⟩) 1 (apiOf gen_x_bank_v1alpha1_bank balanceMsg)
      (descOf gen_x_bank_v1alpha1_bank balanceMsg) { primaryKey := b!"address" } =
        some (.ok ⟨Obj.api (.balance [] []), some (b!"address", .string), []⟩) := by
    have h1 : (descOf gen_x_bank_v1alpha1_bank balanceMsg).fields.any FieldDesc.isMap = false := by decide
    have h2 := hasMap_eq (fun n => ⟨n, []⟩) 0 (descOf gen_x_bank_v1alpha1_bank balanceMsg)
    have h3 := hasKinds_eq (env := fun n => ⟨n, []⟩) (fuel := 0) h1 unsupportedKinds
    rw [h1] at h2
    simp only [parseObjectSchema, h2, h3]
    rfl
  exact C92_get_partial (f := gen_x_bank_v1alpha1_bank) (m := balanceMsg) (d := { primaryKey := b!"address" })
    (l := fileDecls gen_x_bank_v1alpha1_bank) (obj := b!"Balance") (p := b!"address") (t := b!"string")
    (c := b!"NewStringID") hn (by decide) rfl (by rfl) (by decide) hparse h hs (hv ▸ app_keysTyped hi hr hs)
    (v := .str addr) rfl hne hlt o

/-- An object with a number as its primary key. -/
def counterMsg : GenMsg :=
  { name := b!"Counter", goName := b!"Counter", fields := [⟨b!"id", .uint64, .single, []⟩],
    object := some { primaryKey := b!"id" } }

def counterFile : GenFile where
  path := b!"counter"
  goImportPath := b!"example.com/counter"
  package := b!"counter"
  messages := [counterMsg]

/-- **C92** (fails) For an object whose primary key is a number, which can be registered, the generator
writes a `Get` that asks for `meta.(id)`: there is no such function, and for no value is there an
identifier to ask for. -/
theorem C92_fails : ∃ f m d l sch, GoNamesOk f ∧ m ∈ f.messages ∧ m.object = some d ∧
    genFile f = .ret (some l) ∧
    (∀ env, parseObjectSchema env 1 (apiOf f m) (descOf f m) d = some (.ok sch)) ∧
    ∃ p t c, Decl.getByKey m.lowerClient m.goName p t c ∈ l ∧ c = [] ∧ ∀ v, metaID c v = none := by
  refine ⟨counterFile, counterMsg, { primaryKey := b!"id" }, fileDecls counterFile,
    ⟨⟨b!"counter", b!"Counter"⟩, some (b!"id", .uint64), []⟩, ⟨?_, (by decide)⟩, (by decide), rfl, (by rfl), ?_,
    b!"id", b!"uint64", [], (by decide), rfl, ?_⟩
  · intro m hm
    rw [List.mem_singleton.1 (show m ∈ [_] from hm)]
    exact ⟨_, _, rfl, by decide, by decide⟩
  · intro env
    have h1 : (descOf counterFile counterMsg).fields.any FieldDesc.isMap = false := by decide
    have h2 := hasMap_eq env 0 (descOf counterFile counterMsg)
    have h3 := hasKinds_eq (env := env) (fuel := 0) h1 unsupportedKinds
    rw [h1] at h2
    simp only [parseObjectSchema, h2, h3]
    rfl
  · intro v
    cases v <;> rfl

/-! ## C93 -/

/-- **C93** (partial) If the Go names of the messages of a file are exported and different, then the
types, functions and variables generated for it have different names. -/
theorem C93_identifiers_partial {f : GenFile} (hn : GoNamesOk f) {l : List Decl}
    (hg : genFile f = .ret (some l)) : (declared l).idents.Nodup := by
  obtain ⟨_, _, rfl⟩ := genFile_some.1 hg
  exact file_idents_nodup hn

/-- **C93** The generated methods are declared once exactly if no object is called like the plural of
another and no method of an object like that of a transition. -/
theorem C93_methods_iff {f : GenFile} (hn : GoNamesOk f) {l : List Decl}
    (hg : genFile f = .ret (some l)) :
    (declared l).methods.Nodup ↔ ¬ PluralClash f ∧ ¬ ExecClash f := by
  obtain ⟨_, _, rfl⟩ := genFile_some.1 hg
  exact (file_methods_nodup hn).trans (setMethods_nodup hn)

/-- Objects called `Role` and `Roles`. -/
def rolesFile : GenFile where
  path := b!"roles"
  goImportPath := b!"example.com/roles"
  package := b!"roles"
  messages := [
    { name := b!"Role", goName := b!"Role", fields := [⟨b!"id", .string, .single, []⟩],
      object := some { primaryKey := b!"id" } },
    { name := b!"Roles", goName := b!"Roles", fields := [], object := some { singleton := true } }]

/-- **C93** (fails) Both methods are called `Roles`. -/
theorem C93_fails : ∃ f l, GoNamesOk f ∧ genFile f = .ret (some l) ∧ ¬ (declared l).methods.Nodup := by
  refine ⟨rolesFile, fileDecls rolesFile, ⟨?_, (by decide)⟩, (by rfl), by decide⟩
  intro m hm
  rcases List.mem_cons.1 (show m ∈ [_, _] from hm) with rfl | hm
  · exact ⟨_, _, rfl, by decide, by decide⟩
  · rw [List.mem_singleton.1 hm]
    exact ⟨_, _, rfl, by decide, by decide⟩

/-- **C93** (fails) Two annotated files of one Go package always both declare `ClientSet`: a module
cannot be described in two files. -/
theorem C93_package_fails (f g : GenFile) {l k : List Decl} (hf : genFile f = .ret (some l))
    (hg : genFile g = .ret (some k)) : ¬ ((declared l).idents ++ (declared k).idents).Nodup := by
  obtain ⟨_, _, rfl⟩ := genFile_some.1 hf
  obtain ⟨_, _, rfl⟩ := genFile_some.1 hg
  intro h
  have hm : ∀ x, b!"ClientSet" ∈ (declared (fileDecls x)).idents := by
    intro x
    show b!"ClientSet" ∈ (fileDecls x).filterMap declIdent
    rw [file_idents]
    simp
  exact (List.nodup_append.1 h).2.2 _ (hm f) _ (hm g) rfl

/-- **C93** (fails) A generated name can be that of a message of the same file. -/
theorem C93_message_fails : ∃ f l m, GoNamesOk f ∧ genFile f = .ret (some l) ∧ m ∈ f.messages ∧
    m.goName ∈ (declared l).idents := by
  refine ⟨{ counterFile with messages := [counterMsg,
      { name := b!"CounterClient", goName := b!"CounterClient", fields := [] }] }, _,
    { name := b!"CounterClient", goName := b!"CounterClient", fields := [] }, ⟨?_, (by decide)⟩, (by rfl),
    (by decide), by decide⟩
  intro m hm
  rcases List.mem_cons.1 (show m ∈ [_, _] from hm) with rfl | hm
  · exact ⟨_, _, rfl, by decide, by decide⟩
  · rw [List.mem_singleton.1 hm]
    exact ⟨_, _, rfl, by decide, by decide⟩

/-! ## C94 -/

/-- **C94** Exactly when the generator writes code for a file: the file has a package if it has
annotated messages, and every object is as `ObjectOk` says. -/
theorem C94_output_iff (f : GenFile) : (∃ l, genFile f = .ret (some l)) ↔
    ((∃ m ∈ f.messages, m.object ≠ none ∨ m.transition = true) → f.package ≠ []) ∧
    ∀ m ∈ f.messages, ∀ d, m.object = some d → ObjectOk m d := by
  constructor
  · rintro ⟨l, h⟩
    obtain ⟨h1, h2, _⟩ := genFile_some.1 h
    refine ⟨?_, h2⟩
    rintro ⟨m, hm, h⟩
    refine h1 m hm ?_
    rcases h with h | h
    · exact .inl (Option.isSome_iff_ne_none.2 h)
    · exact .inr h
  · rintro ⟨h1, h2⟩
    refine ⟨_, genFile_some.2 ⟨?_, h2, rfl⟩⟩
    intro m hm h
    refine h1 ⟨m, hm, ?_⟩
    rcases h with h | h
    · exact .inl (Option.isSome_iff_ne_none.1 h)
    · exact .inr h

/-- **C94** Exactly when it crashes: some object of a file with a package, which is not a transition
too, has no usable primary key. -/
theorem C94_panic_iff (f : GenFile) : genFile f = .panic ↔ ∃ m ∈ f.messages, ∃ d, m.object = some d ∧
    m.transition = false ∧ f.package ≠ [] ∧ ¬ ObjectOk m d := genFile_panic

/-- **C94** The name under which a generated definition is registered is the full name of the
message. -/
theorem C94_full_name (f : GenFile) (m : GenMsg) : (apiOf f m).name = (descOf f m).fullName := rfl

/-- The API definition wanted for a message: of an object if it is annotated as one, of a transition
if it is annotated as one. -/
def wantedApi (f : GenFile) (m : GenMsg) : Option (Bytes × Bytes × Bytes × Bool) :=
  if m.object ≠ none then some (m.goName, f.package, m.name, false)
  else if m.transition then some (m.goName, f.package, m.name, true)
  else none

/-- **C94** The generated API definitions are those of the annotated messages, in order: the group is
the package, the kind is the name, the type is as annotated; and the generated schema definitions are
the annotations. -/
theorem C94_definitions {f : GenFile} {l : List Decl} (hg : genFile f = .ret (some l)) :
    (declared l).apis = f.messages.filterMap (wantedApi f) ∧
    (declared l).schemas = f.messages.filterMap fun m => m.object.map fun d => (m.goName ++ b!"Schema", d) := by
  obtain ⟨_, _, rfl⟩ := genFile_some.1 hg
  constructor
  · show (fileDecls f).filterMap declApi = _
    have h1 : (f.objects.map fun o => Decl.schema o.1.schemaVar o.2).filterMap declApi = [] := by
      simp [List.filterMap_map, List.filterMap_eq_nil_iff, declApi]
    have h2 : (genClientSet f).filterMap declApi = [] := by
      simp only [genClientSet, List.filterMap_append, List.append_eq_nil_iff, List.filterMap_eq_nil_iff, List.mem_map]
      refine ⟨⟨?_, ?_⟩, ?_⟩
      · simp [declApi]
      · rintro a ⟨_, _, rfl⟩; rfl
      · rintro a ⟨_, _, rfl⟩; rfl
    rw [fileDecls, List.filterMap_append, List.filterMap_append, h1, h2, filterMap_flatMap, List.append_nil,
      List.append_nil]
    generalize f.messages = ms
    induction ms with
    | nil => rfl
    | cons m ms ih =>
      rw [List.flatMap_cons, ih, List.filterMap_cons]
      unfold msgDecls wantedApi
      cases ho : m.object with
      | none => cases ht : m.transition <;> rfl
      | some d => cases hk : (parseSaveInfo m d).getD none <;> simp only [hk] <;> rfl
  · show (fileDecls f).filterMap declSchema = _
    have h1 : (f.objects.map fun o => Decl.schema o.1.schemaVar o.2).filterMap declSchema =
        f.objects.map fun o => (o.1.goName ++ b!"Schema", o.2) := filterMap_map_some fun _ => rfl
    have h2 : (genClientSet f).filterMap declSchema = [] := by
      simp only [genClientSet, List.filterMap_append, List.append_eq_nil_iff, List.filterMap_eq_nil_iff, List.mem_map]
      refine ⟨⟨?_, ?_⟩, ?_⟩
      · simp [declSchema]
      · rintro a ⟨_, _, rfl⟩; rfl
      · rintro a ⟨_, _, rfl⟩; rfl
    have h3 : (f.messages.flatMap (msgDecls f)).filterMap declSchema = [] := by
      rw [filterMap_flatMap, List.flatMap_eq_nil_iff]
      intro m _
      unfold msgDecls
      cases ho : m.object with
      | none => cases ht : m.transition <;> rfl
      | some d => cases hk : (parseSaveInfo m d).getD none <;> simp only [hk] <;> rfl
    rw [fileDecls, List.filterMap_append, List.filterMap_append, h1, h2, h3, List.append_nil, List.nil_append]
    simp [GenFile.objects, List.map_filterMap, Option.map_map, Function.comp_def]

/-- **C94** When the plugin writes files, they are those of the annotated files, each with what is
generated for it. -/
theorem C94_files {fs : List GenFile} {out : List (Bytes × List Decl)} (h : runPlugin fs = .ret (some out)) :
    out.map (·.1) = (fs.filter fun f => f.messages.any fun m => m.object.isSome || m.transition).map
      (fun f => f.path ++ b!".starport.go") ∧
    ∀ e ∈ out, ∃ f ∈ fs, e.1 = f.path ++ b!".starport.go" ∧ genFile f = .ret (some e.2) := by
  induction fs generalizing out with
  | nil =>
    simp only [runPlugin, Out.ret.injEq, Option.some.injEq] at h
    subst h
    exact ⟨rfl, by intro e he; cases he⟩
  | cons f fs ih =>
    rw [runPlugin] at h
    split at h
    · rename_i ha
      cases hf : genFile f with
      | panic => simp [hf] at h
      | ret a =>
        cases hr : runPlugin fs with
        | panic => simp [hf, hr] at h
        | ret b =>
          cases a with
          | none => simp [hf, hr] at h
          | some x =>
            cases b with
            | none => simp [hf, hr] at h
            | some y =>
              simp only [hf, hr, Out.ret.injEq, Option.some.injEq] at h
              subst h
              obtain ⟨h1, h2⟩ := ih hr
              refine ⟨?_, ?_⟩
              · unfold GenFile.annotated at ha
                rw [List.filter_cons, if_pos ha, List.map_cons, List.map_cons, h1]
              · intro e he
                rcases List.mem_cons.1 he with rfl | he
                · exact ⟨f, List.mem_cons_self, rfl, hf⟩
                · obtain ⟨g, hg, h3⟩ := h2 e he
                  exact ⟨g, List.mem_cons_of_mem _ hg, h3⟩
    · rename_i ha
      obtain ⟨h1, h2⟩ := ih h
      refine ⟨?_, ?_⟩
      · unfold GenFile.annotated at ha
        rw [List.filter_cons, if_neg ha, h1]
      · intro e he
        obtain ⟨g, hg, h3⟩ := h2 e he
        exact ⟨g, List.mem_cons_of_mem _ hg, h3⟩

/-- **C94** One bad file stops all: the plugin writes files exactly if all annotated files can be
generated. -/
theorem C94_all_or_nothing (fs : List GenFile) : (∃ out, runPlugin fs = .ret (some out)) ↔
    ∀ f ∈ fs, f.annotated = true → ∃ l, genFile f = .ret (some l) := by
  induction fs with
  | nil => exact ⟨fun _ f hf => (by cases hf), fun _ => ⟨_, rfl⟩⟩
  | cons f fs ih =>
    rw [runPlugin]
    split
    · rename_i ha
      constructor
      · rintro ⟨out, h⟩
        cases hf : genFile f with
        | panic => simp [hf] at h
        | ret a =>
          cases hr : runPlugin fs with
          | panic => simp [hf, hr] at h
          | ret b =>
            cases a with
            | none => simp [hf, hr] at h
            | some x =>
              cases b with
              | none => simp [hf, hr] at h
              | some y =>
                intro g hg hga
                rcases List.mem_cons.1 hg with rfl | hg
                · exact ⟨x, hf⟩
                · exact ih.1 ⟨y, hr⟩ g hg hga
      · intro h
        obtain ⟨l, hl⟩ := h f List.mem_cons_self ha
        obtain ⟨out, ho⟩ := ih.2 fun g hg => h g (List.mem_cons_of_mem _ hg)
        exact ⟨_, by rw [hl, ho]⟩
    · rename_i ha
      rw [ih]
      constructor
      · intro h g hg hga
        rcases List.mem_cons.1 hg with rfl | hg
        · exact absurd hga ha
        · exact h g hg hga
      · intro h g hg
        exact h g (List.mem_cons_of_mem _ hg)

/-- **C94** (fails) The plugin also writes files that were not asked for: those of imported modules. -/
theorem C94_imports_fails : ∃ fs out f, runPlugin fs = .ret (some out) ∧ f ∈ fs ∧ f.generate = false ∧
    f.path ++ b!".starport.go" ∈ out.map (·.1) :=
  ⟨[{ gen_x_bank_v1alpha1_bank with generate := false }], _, _, (by rfl), List.mem_singleton.2 rfl, rfl,
    List.mem_singleton.2 rfl⟩

/-- What registration asks for, beyond what the generator does: a singleton has no keys, the primary
key is not a floating-point number, and the secondary keys are fields of kinds for which there is an
encoder. -/
def Registrable (m : GenMsg) (d : SchemaDef) : Prop :=
  (d.singleton = true → d.primaryKey = [] ∧ d.secondaryKeys = []) ∧
  (∀ x, m.fields.find? (fun f => f.json = d.primaryKey) = some x → x.kind ≠ .double) ∧
  ∀ k ∈ d.secondaryKeys, ∃ x, m.fields.find? (fun f => f.json = k) = some x ∧ x.kind.hasEncoder = true

/-- **C94** (partial) Definitions for which code was generated can be registered, if they are
`Registrable` and the message contains no maps and no unsupported kinds. -/
theorem C94_registers_partial {f : GenFile} {l : List Decl} (hg : genFile f = .ret (some l)) {m : GenMsg}
    (hm : m ∈ f.messages) {d : SchemaDef} (hd : m.object = some d) (hr : Registrable m d)
    {env : DescEnv} {fuel : Nat} (hmap : hasMap env fuel (descOf f m) = some false)
    (hkinds : hasKinds env fuel (descOf f m) unsupportedKinds = some false) :
    ∃ sch, parseObjectSchema env fuel (apiOf f m) (descOf f m) d = some (.ok sch) := by
  obtain ⟨_, hok⟩ := (genFile_some.1 hg).2.1 m hm d hd
  obtain ⟨h1, h2, h3⟩ := hr
  have hfields : (descOf f m).fields = m.fields := rfl
  have hidx : ∀ ks : List Bytes, (∀ k ∈ ks, ∃ x, m.fields.find? (fun f => f.json = k) = some x ∧
      x.kind.hasEncoder = true) → ∃ is, newIndexers (descOf f m) ks = .ok is := by
    intro ks
    induction ks with
    | nil => intro _; exact ⟨[], rfl⟩
    | cons k ks ih =>
      intro h
      obtain ⟨x, hx, he⟩ := h k List.mem_cons_self
      obtain ⟨is, his⟩ := ih fun k hk => h k (List.mem_cons_of_mem _ hk)
      exact ⟨_, by rw [newIndexers, newIndexer, hfields, hx]; simp only [he, if_true, his]; rfl⟩
  unfold parseObjectSchema
  cases hs : d.singleton with
  | true =>
    obtain ⟨hp, hk⟩ := h1 hs
    simp [SchemaDef.validate, hs, hp, hk, hmap, hkinds]
  | false =>
    rcases hok with h | ⟨hp, x, t, hx, ht⟩
    · rw [hs] at h; cases h
    · have he : x.kind.hasEncoder = true := by
        have := h2 x hx
        cases hk : x.kind <;> simp_all [goTypeOf, Kind.hasEncoder]
      obtain ⟨is, his⟩ := hidx _ h3
      have hx' : List.find? (fun f => decide (f.json = d.primaryKey)) (descOf f m).fields = some x := hx
      simp only [SchemaDef.validate, hs, Bool.false_and, Bool.false_eq_true, if_false, Bool.not_false, Bool.true_and,
        hp, decide_false, Bool.not_true, hmap, hkinds, hx', he, if_true, his]
      split
      · exact ⟨_, rfl⟩
      · exact ⟨_, rfl⟩

/-- **C94** (fails) The generator accepts definitions that registration always rejects: a singleton with
a primary key, a floating-point primary key, a secondary key that is not a field. -/
theorem C94_fails : ∃ f l, genFile f = .ret (some l) ∧ f.messages.length = 3 ∧
    ∀ m ∈ f.messages, ∃ d, m.object = some d ∧
      ∀ env fuel sch, parseObjectSchema env fuel (apiOf f m) (descOf f m) d ≠ some (.ok sch) := by
  let a : GenMsg := ⟨b!"A", b!"A", [⟨b!"id", .string, .single, []⟩],
    some { singleton := true, primaryKey := b!"id" }, false⟩
  let b : GenMsg := ⟨b!"B", b!"B", [⟨b!"id", .double, .single, []⟩], some { primaryKey := b!"id" }, false⟩
  let c : GenMsg := ⟨b!"C", b!"C", [⟨b!"id", .string, .single, []⟩],
    some { primaryKey := b!"id", secondaryKeys := [b!"owner"] }, false⟩
  refine ⟨⟨b!"p", b!"p", b!"p", [a, b, c], true⟩, _, (by rfl), rfl, ?_⟩
  intro m hm
  simp only [List.mem_cons, List.not_mem_nil, or_false] at hm
  rcases hm with rfl | rfl | rfl
  · refine ⟨_, rfl, ?_⟩
    intro env fuel sch h
    cases h
  · refine ⟨_, rfl, ?_⟩
    intro env fuel sch h
    rcases (C15_accepted_definition _ _ _ _ _ _ h).2 with h | ⟨_, _, ⟨x, hx, _, hk, _⟩, _⟩
    · cases h.1
    · rw [List.mem_singleton.1 (show x ∈ [_] from hx)] at hk
      exact absurd hk (by decide)
  · refine ⟨_, rfl, ?_⟩
    intro env fuel sch h
    rcases (C15_accepted_definition _ _ _ _ _ _ h).2 with h | ⟨_, _, _, h1, h2⟩
    · cases h.1
    · have : sch.indexes ≠ [] := by
        intro e
        rw [e] at h1
        cases h1
      obtain ⟨i, is, he⟩ := List.exists_cons_of_ne_nil this
      rw [he] at h1 h2
      obtain ⟨x, hx, hj, _⟩ := h2 i List.mem_cons_self
      rw [List.mem_singleton.1 (show x ∈ [_] from hx)] at hj
      have : i.name = b!"owner" := (List.cons.inj h1).1
      rw [this] at hj
      exact absurd hj (by decide)

/-- **C94** The generator, run on the annotated files of the repository, declares exactly what the
generated files of the repository declare. -/
theorem C94_repository : genFiles.map (fun f => match genFile f with
      | .ret (some l) => some (declared l)
      | _ => none) = declaredNames.map some := by decide +kernel

/-- **C94** The objects the modules of the application register are annotated messages of the
repository, registered as they are annotated; and all state objects of the five files of these
modules are registered. -/
theorem C94_application (lib : Libs) :
    (∀ o ∈ (appModules lib).flatMap (·.objects), ∃ f ∈ genFiles.take 5, ∃ m ∈ f.messages,
      m.object = some o.schema ∧ o.api = apiOf f m ∧ o.desc = descOf f m) ∧
    ∀ f ∈ genFiles.take 5, ∀ m ∈ f.messages, m.object ≠ none →
      ∃ o ∈ (appModules lib).flatMap (·.objects), o.api = apiOf f m := by
  have h1 : (((appModules lib).flatMap (·.objects)).all fun o => (genFiles.take 5).any fun f => f.messages.any fun m =>
      m.object == some o.schema && o.api == apiOf f m && o.desc == descOf f m) = true := by rfl
  have h2 : ((genFiles.take 5).all fun f => f.messages.all fun m => m.object == none ||
      ((appModules lib).flatMap (·.objects)).any fun o => o.api == apiOf f m) = true := by rfl
  simp only [List.all_eq_true, List.any_eq_true, Bool.and_eq_true, beq_iff_eq, Bool.or_eq_true] at h1 h2
  constructor
  · intro o ho
    obtain ⟨f, hf, m, hm, ⟨h3, h4⟩, h5⟩ := h1 o ho
    exact ⟨f, hf, m, hm, h3, h4, h5⟩
  · intro f hf m hm hne
    rcases h2 f hf m hm with h | h
    · exact absurd h hne
    · exact h

end Verif.Props
