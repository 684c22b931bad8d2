import Verif.Spec.Http
import Verif.Props.Chain
import Verif.Props.ORM
/-!
# Clients of extension services and the HTTP API: C55, C59, C74, C75
-/

namespace Verif.Props
open Verif Spec

/-! ## C55 -/

/-- **C59** What names are made of in paths is their lower case, for all bytes. -/
theorem C59_lower (s : Bytes) : toLower s = lowered s := by
  have h : ∀ n < 256, lowerByte (UInt8.ofNat n) =
      (((b!"ABCDEFGHIJKLMNOPQRSTUVWXYZ").zip b!"abcdefghijklmnopqrstuvwxyz").find? (·.1 == UInt8.ofNat n)).elim
        (UInt8.ofNat n) (·.2) := by decide +kernel
  refine List.map_congr_left fun b _ => ?_
  have := h b.toNat b.toNat_lt
  rwa [UInt8.ofNat_toNat] at this

section
variable {S O T : Type}

/-- **C55** Every create, update, delete and deliver through the client of extension services
returns an error and leaves the state as it is, whatever the store. -/
theorem C55_writes_rejected (c : ORMClient S O) (o : O) (t : T) (s : S) :
    (∃ e, c.create o s = (.error e, s)) ∧ (∃ e, c.update o s = (.error e, s)) ∧
    (∃ e, c.delete o s = (.error e, s)) ∧ ∃ e, c.deliver t s = (.error e, s) :=
  ⟨⟨_, rfl⟩, ⟨_, rfl⟩, ⟨_, rfl⟩, ⟨_, rfl⟩⟩

/-- **C55** Code of an extension service, whatever it does with its client, ends in the state it
started in. -/
theorem C55_state_unchanged {α : Type} (c : ORMClient S O) (p : Prog O T α) (s s' : S) (a : α)
    (h : p.serve c s = .done a s') : s' = s := by
  induction p with
  | ret b => cases h; rfl
  | crash => cases h
  | get ty id k ih => exact ih _ h
  | list ty opt k ih =>
    simp only [Prog.serve] at h
    split at h
    · cases h
    · exact ih _ h
  | create o k ih => exact ih _ h
  | update o k ih => exact ih _ h
  | delete o k ih => exact ih _ h
  | deliver t u k ih => exact ih _ h

/-- **C55** What such code reads is what the store holds. -/
theorem C55_reads (c : ORMClient S O) (s : S) (ty id : Bytes) (opt : ListOptions) :
    c.get s ty id = c.ops.get s ty id ∧ c.list s ty opt = c.ops.list s ty opt := ⟨rfl, rfl⟩

/-- Non-vacuity: a service that deletes a post, sees the error, and then reads it. -/
example : ∃ (s : Store Msg) (rs : List (Except OrmErr Unit)) (e : Err),
    Reached sampleReg [.create (post b!"p" b!"ann" 3)] rs s ∧
    (Prog.delete (T := Unit) (post b!"p" b!"ann" 3) fun r =>
      .get postApi.name b!"p" fun g => .ret (r, g)).serve ⟨ormOps Msg⟩ s =
        .done (.error e, .ok (post b!"p" b!"ann" 3)) s :=
  ⟨_, _, .other, ⟨sampleReg_ok, by rfl⟩, by rfl⟩

end

/-! ## C59 -/

theorem findRoute_append (rs rs' : List Route) (path : List Bytes) :
    findRoute (rs ++ rs') path = match findRoute rs path with
      | some r => some r
      | none => findRoute rs' path := by
  induction rs with
  | nil => rfl
  | cons r rs ih =>
    simp only [List.cons_append, findRoute]
    cases matchSegs r.segs path with
    | some vars => rfl
    | none => exact ih

/-- What the routes of one type do with a path of three segments. -/
theorem objectRoutes_three (sch : Schema) (d : SchemaDef) {g k key : Bytes} (hk : key ≠ []) :
    findRoute (objectRoutes sch d) [g, k, key] =
      if d.singleton = false ∧ toLower sch.api.group = g ∧ toLower sch.api.kind = k
      then some (.get sch d.primaryKey, [(toLower d.primaryKey, key)]) else none := by
  unfold objectRoutes
  by_cases hd : d.singleton = true
  · rw [if_pos hd, if_neg (by rw [hd]; rintro ⟨h, _⟩; cases h)]
    simp only [findRoute, matchSegs]
    split <;> rename_i h
    · split at h
      · split at h <;> cases h
      · cases h
    · rfl
  · rw [if_neg hd, Bool.eq_false_of_not_eq_true hd]
    simp only [findRoute, matchSegs, if_neg hk, true_and]
    by_cases hg : toLower sch.api.group = g <;> by_cases hk' : toLower sch.api.kind = k <;>
      simp [hg, hk']

/-- What the routes of one type do with a path of two segments. -/
theorem objectRoutes_two (sch : Schema) (d : SchemaDef) (g k : Bytes) :
    findRoute (objectRoutes sch d) [g, k] =
      if toLower sch.api.group = g then
        if d.singleton = true then
          if toLower sch.api.kind = k then some (.singleton sch, []) else none
        else if toLower (sch.api.kind ++ b!"s") = k then some (.list sch, []) else none
      else none := by
  unfold objectRoutes
  by_cases hd : d.singleton = true
  · rw [if_pos hd]
    simp only [findRoute, matchSegs, hd, if_true]
    by_cases hg : toLower sch.api.group = g <;> by_cases hk' : toLower sch.api.kind = k <;>
      simp [hg, hk']
  · rw [if_neg hd]
    simp only [findRoute, matchSegs, hd, if_false]
    by_cases hg : toLower sch.api.group = g <;> by_cases hk' : toLower (sch.api.kind ++ b!"s") = k <;>
      by_cases hk'' : toLower sch.api.kind = k <;> simp [hg, hk', hk'']

theorem findRoute_object {objs : List (Schema × SchemaDef)} (h : PathsOk objs) {e : Schema × SchemaDef}
    (he : e ∈ objs) (hs : e.2.singleton = false) {key : Bytes} (hk : key ≠ []) :
    findRoute (allRoutes objs) [toLower e.1.api.group, toLower e.1.api.kind, key] =
      some (.get e.1 e.2.primaryKey, [(toLower e.2.primaryKey, key)]) := by
  unfold allRoutes
  rw [findRoute_append]
  suffices hf : findRoute (objs.flatMap fun e => objectRoutes e.1 e.2)
      [toLower e.1.api.group, toLower e.1.api.kind, key] =
      some (.get e.1 e.2.primaryKey, [(toLower e.2.primaryKey, key)]) by rw [hf]
  have hd := h.distinct
  clear h
  induction objs with
  | nil => cases he
  | cons e' objs ih =>
    rw [List.flatMap_cons, findRoute_append, objectRoutes_three _ _ hk]
    rw [List.pairwise_cons] at hd
    rcases List.mem_cons.1 he with rfl | he
    · rw [if_pos ⟨hs, rfl, rfl⟩]
    · rw [if_neg (fun hc => hd.1 e he hc.2)]
      exact ih he hd.2

theorem split_httpPath {group kind key : Bytes} (hg : 47 ∉ toLower group) (hk : 47 ∉ toLower kind)
    (hkey : 47 ∉ key) :
    Bytes.splitOn 47 (httpPath group kind key) = [[], toLower group, toLower kind, key] := by
  unfold httpPath
  have := splitOn_cons (sep := 47) (a := []) (by simp) (toLower group ++ 47 :: (toLower kind ++ 47 :: key))
  rw [List.nil_append] at this
  rw [this, splitOn_cons hg, splitOn_cons hk, splitOn_last hkey]

section
variable {S O : Type}

/-- The answer to a GET on the path of an object. -/
theorem http_object {objs : List (Schema × SchemaDef)} (h : PathsOk objs) {e : Schema × SchemaDef}
    (he : e ∈ objs) (hs : e.2.singleton = false) {key : Bytes} (hk : PathName key) (jsonFails : O → Bool)
    (c : ORMClient S O) (s : S) {req : HttpReq} (hp : req.path = httpPath e.1.api.group e.1.api.kind key) :
    serveHttp jsonFails c (allRoutes objs) req s =
      getHandler jsonFails c e.1 e.2.primaryKey [(toLower e.2.primaryKey, key)] req s := by
  obtain ⟨⟨g1, g2, g3, g4⟩, k1, k2, k3, k4⟩ := h.names e he
  obtain ⟨y1, y2, y3, y4⟩ := hk
  unfold serveHttp
  rw [hp, split_httpPath g2 k2 y2]
  have hc : cleanSegs [toLower e.1.api.group, toLower e.1.api.kind, key] = true := by
    simp [cleanSegs, g1, g3, g4, k1, k3, k4, y3, y4]
  simp only [hc, findRoute_object h he hs y1]
  rfl

variable [StateObject O]

theorem get_view {s : Store O} (ty pk : Bytes) (o : O) : s.get ty pk = .ok o ↔ view s ty pk = some o := by
  simp only [view]
  cases hg : s.get ty pk with
  | ok o' => simp
  | error e => simp

/-- The objects of a type are stored under the encodings of their primary keys. -/
theorem inv_hits_pk {s : Store O} (hi : Inv s) {sch : Schema} (hs : sch ∈ s.reg) {f : Bytes} {k : Kind}
    (hty : KeysTyped (view s) sch)
    (hp : sch.pk = some (f, k)) {v : Val} (hv : kindOf v = some k) {b : Bytes} (hb : k.encodeValue v = .ret b)
    {pk : Bytes} : hits (view s) sch.name f v pk ↔ pk = b ∧ ∃ o, view s sch.name b = some o := by
  have hreg := Registry.get_of_mem hi.reg.names hs
  have hfield : ∀ {pk o}, view s sch.name pk = some o → k.encodeValue (StateObject.field o f) = .ret pk := by
    intro pk o ho
    rw [view_eq hreg] at ho
    split at ho
    · cases ho
    · have := (hi.live_of_get hreg ho).1.enc
      simpa only [Schema.encodePrimaryKey, hp] using this
  constructor
  · rintro ⟨o, ho, rfl⟩
    have := hfield ho
    rw [hb] at this
    cases this
    exact ⟨rfl, o, ho⟩
  · rintro ⟨rfl, o, ho⟩
    exact ⟨o, ho, (encodeValue_eq_iff hv ((hty _ o ho).2 _ _ hp) hb).1 (hfield ho)⟩

theorem http_get {s : Store O} {objs : List (Schema × SchemaDef)} (hp : PathsOk objs)
    {sch : Schema} {d : SchemaDef} (he : (sch, d) ∈ objs) (hd : d.singleton = false)
    {k : Kind} (hpk : sch.pk = some (d.primaryKey, k)) (hlow : toLower d.primaryKey = d.primaryKey)
    {v : Val} (hv : kindOf v = some k) (hname : PathName (text v)) (jsonFails : O → Bool) {req : HttpReq}
    (hpath : req.path = httpPath sch.api.group sch.api.kind (text v)) (hh : heightOk req.height = true)
    (hj : ∀ o pk, view s sch.name pk = some o → jsonFails o = false)
    {b : Bytes} (hb : k.encodeValue v = .ret b) :
    serveHttp jsonFails ⟨ormOps O⟩ (allRoutes objs) req s = match view s sch.name b with
      | some o => .ret (.object o)
      | none => .ret .notFound := by
  rw [http_object hp he hd hname jsonFails _ s hpath]
  have henc : sch.encodePrimaryKeyString (text v) = .ret (some b) := by
    simp only [Schema.encodePrimaryKeyString, hpk, C06_text_agrees k v hv, Out.encoded, hb]
  simp only [getHandler, hh, Bool.not_true, Bool.false_eq_true, if_false, hlow, List.find?_cons,
    decide_true, henc, ORMClient.get, ormOps]
  cases hg : s.get sch.name b with
  | error e => simp [view, hg]
  | ok o =>
    have ho := (get_view _ _ _).1 hg
    simp [ho, writeObject, hj o b ho]

/-- **C59 partial**: for every object type with a lower-case primary key, every value whose text can
be a segment of a path and every state, the GET on the path of the object answers the stored object
whose primary key field has that value, and "not found" if there is none.  (The height is absent or
a positive number, and the object can be written as JSON.)  Missing: primary keys written with
upper-case letters, and values whose text is empty, "." or "..", or has a slash
(`C59_mixed_case_fails`, `C59_slash_fails`, `C59_dot_fails`), and types whose paths are those of
another (`C59_collision_fails`). -/
theorem C59_partial {reg : Registry} {ops : List (Op O)} {rs : List (Except OrmErr Unit)} {s : Store O}
    (h : Reached reg ops rs s) {objs : List (Schema × SchemaDef)} (hp : PathsOk objs)
    {sch : Schema} {d : SchemaDef} (he : (sch, d) ∈ objs) (hs : sch ∈ reg)
    (hty : KeysTyped (run reg Contents.empty ops).2 sch) (hd : d.singleton = false)
    {k : Kind} (hpk : sch.pk = some (d.primaryKey, k)) (hlow : toLower d.primaryKey = d.primaryKey)
    {v : Val} (hv : kindOf v = some k) (hname : PathName (text v)) (jsonFails : O → Bool) {req : HttpReq}
    (hpath : req.path = httpPath sch.api.group sch.api.kind (text v)) (hh : heightOk req.height = true)
    (hj : ∀ o pk, (run reg Contents.empty ops).2 sch.name pk = some o → jsonFails o = false) :
    let m := (run reg Contents.empty ops).2
    let answer := serveHttp jsonFails ⟨ormOps O⟩ (allRoutes objs) req s
    (∃ o pk, m sch.name pk = some o ∧ StateObject.field o d.primaryKey = v ∧ answer = .ret (.object o)) ∨
    ((∀ pk, ¬ hits m sch.name d.primaryKey v pk) ∧ answer = .ret .notFound) := by
  obtain ⟨hi, hr, hrun⟩ := Reached.inv h
  have hvw : (run reg Contents.empty ops).2 = view s := by rw [hrun]
  rw [hvw] at hj hty ⊢
  subst hr
  intro m answer
  obtain ⟨b, hb⟩ := C04_encoding_total v k hv
  have ha : answer = _ := http_get hp he hd hpk hlow hv hname jsonFails hpath hh hj hb
  rw [ha]
  have hh := inv_hits_pk hi hs hty hpk hv hb (pk := b)
  cases hg : view s sch.name b with
  | some o =>
    obtain ⟨o', ho', hf⟩ := hh.2 ⟨rfl, o, hg⟩
    rw [hg] at ho'
    cases ho'
    exact .inl ⟨o, b, hg, hf, rfl⟩
  | none =>
    refine .inr ⟨fun pk hpk' => ?_, rfl⟩
    obtain ⟨rfl, o, ho⟩ := (inv_hits_pk hi hs hty hpk hv hb).1 hpk'
    rw [hg] at ho
    cases ho

end

/-- The sample types with their definitions. -/
def sampleObjects : List (Schema × SchemaDef) :=
  [(postSchema, { primaryKey := b!"id", secondaryKeys := [b!"creator", b!"likes"] }),
   (noteSchema, { primaryKey := b!"id" })]

theorem sample_paths : PathsOk sampleObjects := ⟨by decide, by decide⟩

/-- Non-vacuity: the post "p" is found, and a note with the number 7 is not. -/
example : ∃ (s : Store Msg) (rs : List (Except OrmErr Unit)),
    Reached sampleReg [.create (post b!"p" b!"ann" 3)] rs s ∧ PathName (text (.str b!"p")) ∧
    serveHttp (fun _ => false) ⟨ormOps Msg⟩ (allRoutes sampleObjects) { path := b!"/test/post/p" } s =
      .ret (.object (post b!"p" b!"ann" 3)) ∧
    serveHttp (fun _ => false) ⟨ormOps Msg⟩ (allRoutes sampleObjects)
      { path := b!"/test/note/7", height := b!"12" } s = .ret .notFound :=
  ⟨_, _, ⟨sampleReg_ok, by rfl⟩, by decide, by decide +kernel, by decide +kernel⟩

section
variable {S O : Type}

/-- **C59 is false**: if the primary key is written with an upper-case letter, every GET on the path
of an object is a bad request, whether the object is stored or not. -/
theorem C59_mixed_case_fails {objs : List (Schema × SchemaDef)} (h : PathsOk objs) {sch : Schema} {d : SchemaDef}
    (he : (sch, d) ∈ objs) (hs : d.singleton = false) (hcase : toLower d.primaryKey ≠ d.primaryKey)
    {key : Bytes} (hk : PathName key) (jsonFails : O → Bool) (c : ORMClient S O) (s : S) {req : HttpReq}
    (hp : req.path = httpPath sch.api.group sch.api.kind key) :
    serveHttp jsonFails c (allRoutes objs) req s = .ret .badRequest := by
  rw [http_object h he hs hk jsonFails c s hp]
  simp [getHandler, hcase]

/-- **C59 is false**: a value with a slash is never found. -/
theorem C59_slash_fails (objs : List (Schema × SchemaDef)) {group kind x y : Bytes} (hg : 47 ∉ toLower group)
    (hk : 47 ∉ toLower kind) (hx : PathName x) (hy : PathName y) (jsonFails : O → Bool) (c : ORMClient S O)
    (s : S) {req : HttpReq} (hp : req.path = httpPath group kind (x ++ 47 :: y)) (o : O) :
    serveHttp jsonFails c (allRoutes objs) req s ≠ .ret (.object o) := by
  have hnone : findRoute (allRoutes objs) [toLower group, toLower kind, x, y] = none := by
    unfold allRoutes
    rw [findRoute_append]
    have : findRoute (objs.flatMap fun e => objectRoutes e.1 e.2) [toLower group, toLower kind, x, y] = none := by
      induction objs with
      | nil => rfl
      | cons e objs ih =>
        rw [List.flatMap_cons, findRoute_append]
        have : findRoute (objectRoutes e.1 e.2) [toLower group, toLower kind, x, y] = none := by
          unfold objectRoutes
          split
          · simp only [findRoute, matchSegs]
            split <;> rename_i h
            · split at h
              · split at h <;> cases h
              · cases h
            · rfl
          · simp only [findRoute, matchSegs]
            by_cases h1 : toLower e.1.api.group = toLower group <;>
              by_cases h2 : toLower e.1.api.kind = toLower kind <;>
              by_cases h3 : toLower (e.1.api.kind ++ b!"s") = toLower kind <;> simp [h1, h2, h3]
        rw [this]
        exact ih
    rw [this]
    simp only [findRoute, matchSegs]
    split <;> rename_i h
    · split at h <;> cases h
    · rfl
  have hsp : Bytes.splitOn 47 req.path = [[], toLower group, toLower kind, x, y] := by
    rw [hp]
    unfold httpPath
    have := splitOn_cons (sep := 47) (a := []) (by simp) (toLower group ++ 47 :: (toLower kind ++ 47 :: (x ++ 47 :: y)))
    rw [List.nil_append] at this
    rw [this, splitOn_cons hg, splitOn_cons hk, splitOn_cons hx.2.1, splitOn_last hy.2.1]
  unfold serveHttp
  rw [hsp]
  simp only [hnone]
  split <;> simp

/-- **C59 is false**: "." and ".." are never found. -/
theorem C59_dot_fails (objs : List (Schema × SchemaDef)) {group kind key : Bytes} (hg : 47 ∉ toLower group)
    (hk : 47 ∉ toLower kind) (hkey : key = b!"." ∨ key = b!"..") (jsonFails : O → Bool) (c : ORMClient S O)
    (s : S) {req : HttpReq} (hp : req.path = httpPath group kind key) :
    serveHttp jsonFails c (allRoutes objs) req s = .ret .redirect := by
  have h47 : 47 ∉ key := by rcases hkey with rfl | rfl <;> decide
  have hc : cleanSegs [toLower group, toLower kind, key] = false := by
    rcases hkey with rfl | rfl <;> simp [cleanSegs]
  unfold serveHttp
  rw [hp, split_httpPath hg hk h47]
  simp [hc]

end

/-- A type whose name differs from that of the posts in case only. -/
def shoutSchema : Schema := ⟨⟨b!"test", b!"POST"⟩, some (b!"id", .string), []⟩

/-- A type with a primary key written as protobuf writes the JSON names of `account_id`. -/
def mixedSchema : Schema := ⟨⟨b!"test", b!"Member"⟩, some (b!"accountId", .string), []⟩

/-- A member. -/
def member (id : Bytes) : Msg := ⟨mixedSchema.api, [(b!"accountId", .str id)]⟩

/-- **C59 is false**: a stored object that no path reads. -/
theorem C59_member_fails : ∃ (s : Store Msg) (rs : List (Except OrmErr Unit)),
    Reached [mixedSchema] [.create (member b!"ann")] rs s ∧ s.get mixedSchema.name b!"ann" = .ok (member b!"ann") ∧
    serveHttp (fun _ => false) ⟨ormOps Msg⟩ (allRoutes [(mixedSchema, { primaryKey := b!"accountId" })])
      { path := httpPath b!"test" b!"Member" b!"ann" } s = .ret .badRequest := by
  refine ⟨_, _, ⟨⟨by decide, fun x hx => ?_⟩, by rfl⟩, by rfl, by decide +kernel⟩
  rw [List.mem_singleton] at hx
  subst hx
  refine ⟨by decide, fun t h => ?_, by decide, by decide⟩
  have := congrArg List.head? h; revert this; simp; decide

/-- **C59 is false**: of two types whose names differ in case only, both registered, only the first
can be read. -/
theorem C59_collision_fails : ∃ (s : Store Msg) (rs : List (Except OrmErr Unit)),
    Reached [postSchema, shoutSchema] [.create ⟨shoutSchema.api, [(b!"id", .str b!"p")]⟩] rs s ∧
    s.get shoutSchema.name b!"p" = .ok ⟨shoutSchema.api, [(b!"id", .str b!"p")]⟩ ∧
    serveHttp (fun _ => false) ⟨ormOps Msg⟩
      (allRoutes [(postSchema, { primaryKey := b!"id" }), (shoutSchema, { primaryKey := b!"id" })])
      { path := httpPath b!"test" b!"POST" b!"p" } s = .ret .notFound := by
  refine ⟨_, _, ⟨⟨by decide, fun x hx => ?_⟩, by rfl⟩, by rfl, by decide +kernel⟩
  simp only [List.mem_cons, List.not_mem_nil, or_false] at hx
  rcases hx with rfl | rfl
  · refine ⟨by decide, fun t h => ?_, by decide, by decide⟩
    have := congrArg List.head? h; revert this; simp; decide
  · refine ⟨by decide, fun t h => ?_, by decide, by decide⟩
    have := congrArg List.head? h; revert this; simp; decide

/-! ### The application -/

variable {lib : Libs}

theorem stored_view {calls : List (Call BlockReq)} {rs : List (Resp Obj)} {s : Store Obj}
    (h : Stored lib calls rs s) : Inv s ∧ s.reg = appReg ∧ Served lib calls rs (view s) := by
  obtain ⟨n, a, h, rfl⟩ := h
  rcases (steps_on_a_map (c := ormApp lib) rfl app_regOk n calls).cases with
    ⟨r, s, b, h1, h2, hq⟩ | ⟨h1, _⟩ | ⟨h1, _⟩
  · have h1' := h1
    rw [h] at h1'
    cases h1'
    exact ⟨hq.store.inv, hq.store.reg, n, a, h1, rfl⟩
  · rw [h] at h1; cases h1
  · rw [h] at h1; cases h1

theorem app_paths : PathsOk (appObjects lib) :=
  ⟨of_decide_eq_true (by rfl), of_decide_eq_true (by rfl)⟩

theorem app_objects : ∀ e ∈ appObjects lib, e.1 ∈ appReg ∧ if e.2.singleton = true then e.1.pk = none ∧
    findRoute (allRoutes (appObjects lib)) [toLower e.1.api.group, toLower e.1.api.kind] = some (.singleton e.1, [])
    else e.1.pk = some (e.2.primaryKey, .string) ∧ toLower e.2.primaryKey = e.2.primaryKey :=
  of_decide_eq_true (by rfl)

/-- **C59 partial**: in every state reached by the application, for every type of object that is not
a singleton and every key that can be a segment of a path, the GET answers what is stored under the
key, and "not found" if nothing is.  Missing: keys with a slash, "." and "..". -/
theorem C59_application_partial {calls : List (Call BlockReq)} {rs : List (Resp Obj)} {s : Store Obj}
    (h : Stored lib calls rs s) {sch : Schema} {d : SchemaDef} (he : (sch, d) ∈ appObjects lib)
    (hd : d.singleton = false) {key : Bytes} (hk : PathName key) {req : HttpReq}
    (hpath : req.path = httpPath sch.api.group sch.api.kind key) (hh : heightOk req.height = true)
    (hj : ∀ o pk, view s sch.name pk = some o → lib.jsonFails o = false) :
    apiAnswer lib req s = match view s sch.name (encKey key) with
      | some o => .ret (.object o)
      | none => .ret .notFound := by
  have := (app_objects (lib := lib) _ he).2
  rw [if_neg (by simp [hd])] at this
  rw [apiAnswer, apiClient, http_get app_paths he hd this.1 this.2 (v := .str key) rfl hk lib.jsonFails hpath hh hj
    (b := encKey key) rfl]
  cases view s sch.name (encKey key) <;> rfl

/-- No key field of the application is a repeated field. -/
theorem app_keysTyped {s : Store Obj} (hi : Inv s) (hr : s.reg = appReg) {sch : Schema} (hs : sch ∈ appReg) :
    KeysTyped (view s) sch := by
  intro pk o ho
  have hreg := Registry.get_of_mem hi.reg.names (hr ▸ hs)
  rw [view_eq hreg] at ho
  split at ho
  · cases ho
  · have hl := (hi.live_of_get hreg ho).1
    have h := hl.reg
    rw [hr] at h
    have key : ∀ sch', appReg.get (oname o) = some sch' →
        (∀ i ∈ sch'.indexes, kindOf (StateObject.field o i.name) = some i.kind) ∧
        ∀ f k, sch'.pk = some (f, k) → kindOf (StateObject.field o f) = some k := by
      intro sch' h
      cases o
      case role r =>
        obtain rfl : ⟨Obj.api (.role { id := [] }), some (b!"id", .string), []⟩ = sch' :=
          Option.some.inj ((by rfl : appReg.get _ = _).symm.trans h)
        exact ⟨fun i hi => (by cases hi), fun f k hk => (by cases hk; rfl)⟩
      case roleBinding x y =>
        obtain rfl : ⟨Obj.api (.roleBinding [] []), some (b!"subject", .string), [⟨b!"roleRef", .string⟩]⟩ = sch' :=
          Option.some.inj ((by rfl : appReg.get _ = _).symm.trans h)
        exact ⟨fun i hi => (by cases List.mem_singleton.1 hi; rfl), fun f k hk => (by cases hk; rfl)⟩
      case account x =>
        obtain rfl : ⟨Obj.api (.account ⟨[], none, 0, 0⟩), some (b!"address", .string),
            [⟨b!"accountNumber", .uint64⟩]⟩ = sch' :=
          Option.some.inj ((by rfl : appReg.get _ = _).symm.trans h)
        exact ⟨fun i hi => (by cases List.mem_singleton.1 hi; rfl), fun f k hk => (by cases hk; rfl)⟩
      case balance x y =>
        obtain rfl : ⟨Obj.api (.balance [] []), some (b!"address", .string), []⟩ = sch' :=
          Option.some.inj ((by rfl : appReg.get _ = _).symm.trans h)
        exact ⟨fun i hi => (by cases hi), fun f k hk => (by cases hk; rfl)⟩
      all_goals
        obtain rfl : ⟨Obj.api _, none, []⟩ = sch' :=
          Option.some.inj ((by rfl : appReg.get _ = _).symm.trans h)
        exact ⟨fun i hi => (by cases hi), fun f k hk => (by cases hk)⟩
    exact key sch h

/-- **C11** In every state reached by the application, listing a type by one indexed field: an error
if no stored object has the value; otherwise the primary keys of exactly the stored objects having
it, in strictly increasing order, and reading at each position succeeds. -/
theorem C11_application_list_exact {calls : List (Call BlockReq)} {rs : List (Resp Obj)} {s : Store Obj}
    (h : Stored lib calls rs s) (sch : Schema) (hs : sch ∈ appReg) (i : Indexer) (hm : i ∈ sch.indexes)
    (v : Val) (hk : kindOf v = some i.kind) (opt : ListOptions) (ho : asksFor opt i.name v)
    (hlen : ∀ b, i.kind.encodeValue v = .ret b → 25 + sch.name.length + i.name.length + b.length < maxLen) :
    (s.listKeys sch.name opt = .ret (.error .noResults) ∧ ∀ pk, ¬ hits (view s) sch.name i.name v pk) ∨
    ∃ ks, s.listKeys sch.name opt = .ret (.ok ks) ∧ ks ≠ [] ∧ StrictlyIncreasing ks ∧
      (∀ pk, pk ∈ ks ↔ hits (view s) sch.name i.name v pk) ∧
      s.list sch.name opt = .ret (.ok (ks.map fun pk => s.get sch.name pk)) ∧
      ∀ pk ∈ ks, ∃ o, s.get sch.name pk = .ok o ∧ view s sch.name pk = some o := by
  obtain ⟨hi, hr, _⟩ := stored_view h
  exact inv_list_exact hi sch (hr ▸ hs) (app_keysTyped hi hr hs) i hm v hk opt ho hlen

/-- Non-vacuity: role bindings can be listed by role and accounts by number. -/
example : (∃ sch ∈ appReg, sch.name = tyRoleBinding ∧ ⟨b!"roleRef", .string⟩ ∈ sch.indexes) ∧
    (∃ sch ∈ appReg, sch.name = tyAccount ∧ ⟨b!"accountNumber", .uint64⟩ ∈ sch.indexes) := by decide

theorem split_two {group kind : Bytes} (hg : 47 ∉ group) (hk : 47 ∉ kind) :
    Bytes.splitOn 47 (47 :: (group ++ 47 :: kind)) = [[], group, kind] := by
  have := splitOn_cons (sep := 47) (a := []) (by simp) (group ++ 47 :: kind)
  rw [List.nil_append] at this
  rw [this, splitOn_cons hg, splitOn_last hk]

/-- **C59** In every state reached by the application, the GET on the path of a singleton answers
it if it is stored, and "not found" otherwise. -/
theorem C59_singletons {calls : List (Call BlockReq)} {rs : List (Resp Obj)} {s : Store Obj}
    (_ : Stored lib calls rs s) {sch : Schema} {d : SchemaDef} (he : (sch, d) ∈ appObjects lib)
    (hd : d.singleton = true) {req : HttpReq}
    (hpath : req.path = 47 :: (toLower sch.api.group ++ 47 :: toLower sch.api.kind))
    (hh : heightOk req.height = true)
    (hj : ∀ o pk, view s sch.name pk = some o → lib.jsonFails o = false) :
    apiAnswer lib req s = match view s sch.name b!"unique" with
      | some o => .ret (.object o)
      | none => .ret .notFound := by
  have hf := (app_objects (lib := lib) _ he).2
  rw [if_pos hd] at hf
  obtain ⟨⟨g1, g2, g3, g4⟩, k1, k2, k3, k4⟩ := (app_paths (lib := lib)).names _ he
  have hc : cleanSegs [toLower sch.api.group, toLower sch.api.kind] = true := by
    simp [cleanSegs, g1, g3, g4, k3, k4]
  unfold apiAnswer serveHttp
  rw [hpath, split_two g2 k2]
  simp only [hc, Bool.not_true, Bool.false_eq_true, if_false, hf.2, singletonHandler, hh, apiClient,
    ORMClient.get, ormOps]
  cases hg : s.get sch.name b!"unique" with
  | error e => simp [view, hg]
  | ok o =>
    have ho := (get_view _ _ _).1 hg
    simp [ho, writeObject, hj o _ ho]

/-- Non-vacuity: of the objects of the application, the accounts, roles, bindings and balances are not
singletons, and the current block is one. -/
example : ((appObjects lib).filter fun e => !e.2.singleton).map (·.1.name) = [tyAccount, tyRole, tyRoleBinding, tyBalance] ∧
    (singletonSchema (.currentBlock 0), { singleton := true }) ∈ appObjects lib ∧
    httpPath b!"tmos.x.authn.v1alpha1" b!"Account" b!"ann" = b!"/tmos.x.authn.v1alpha1/account/ann" :=
  ⟨of_decide_eq_true (by rfl), of_decide_eq_true (by rfl), by decide⟩

/-! ## C74 -/

section
variable {S O : Type}

theorem findRoute_list {objs : List (Schema × SchemaDef)} (h : PathsOk objs) {e : Schema × SchemaDef}
    (he : e ∈ objs) (hs : e.2.singleton = false) (hl : ListOk objs e.1) :
    findRoute (allRoutes objs) [toLower e.1.api.group, toLower e.1.api.kind ++ b!"s"] = some (.list e.1, []) := by
  unfold allRoutes
  rw [findRoute_append]
  suffices hf : findRoute (objs.flatMap fun e => objectRoutes e.1 e.2)
      [toLower e.1.api.group, toLower e.1.api.kind ++ b!"s"] = some (.list e.1, []) by rw [hf]
  have hd := h.distinct
  clear h
  have hlow : ∀ k : Bytes, toLower (k ++ b!"s") = toLower k ++ b!"s" := fun k => by
    rw [toLower, List.map_append]; rfl
  induction objs with
  | nil => cases he
  | cons e' objs ih =>
    rw [List.flatMap_cons, findRoute_append, objectRoutes_two]
    rw [List.pairwise_cons] at hd
    rcases List.mem_cons.1 he with rfl | he
    · rw [if_pos rfl, if_neg (by simp [hs]), if_pos (hlow _)]
    · have ih' := ih he (fun x hx => hl x (List.mem_cons_of_mem _ hx)) hd.2
      by_cases hg : toLower e'.1.api.group = toLower e.1.api.group
      · rw [if_pos hg]
        by_cases hsg : e'.2.singleton = true
        · rw [if_pos hsg, if_neg (fun hc => hl e' (List.mem_cons_self ..) hsg ⟨hg, hc⟩)]
          exact ih'
        · rw [if_neg hsg, if_neg]
          · exact ih'
          · rw [hlow]
            intro hc
            exact hd.1 e he ⟨hg, List.append_cancel_right hc⟩
      · rw [if_neg hg]
        exact ih'

theorem splitSelection_eq {f : Bytes} (h : 61 ∉ f) (v : Bytes) :
    splitSelection (f ++ 61 :: v) = some (f, v) := by
  induction f with
  | nil => rfl
  | cons x f ih =>
    rw [List.mem_cons, not_or] at h
    rw [List.cons_append, splitSelection, ih h.2]
    exact fun hc => h.1 hc.symm

theorem http_list {objs : List (Schema × SchemaDef)} (h : PathsOk objs) {e : Schema × SchemaDef}
    (he : e ∈ objs) (hs : e.2.singleton = false) (hl : ListOk objs e.1) (jsonFails : O → Bool)
    (c : ORMClient S O) (s : S) {req : HttpReq} (hp : req.path = httpListPath e.1.api.group e.1.api.kind) :
    serveHttp jsonFails c (allRoutes objs) req s = listHandler jsonFails c e.1 req s := by
  obtain ⟨⟨g1, g2, g3, g4⟩, k1, k2, k3, k4⟩ := h.names e he
  have hk2 : 47 ∉ toLower e.1.api.kind ++ b!"s" := by
    rw [List.mem_append, not_or]; exact ⟨k2, by decide⟩
  have hdot : toLower e.1.api.kind ++ b!"s" ≠ b!"." ∧ toLower e.1.api.kind ++ b!"s" ≠ b!".." := by
    constructor <;> intro hc <;> have := congrArg List.getLast? hc <;> simp at this
  have hc : cleanSegs [toLower e.1.api.group, toLower e.1.api.kind ++ b!"s"] = true := by
    simp only [cleanSegs, decide_eq_true g1, decide_eq_true g3, decide_eq_true g4, decide_eq_true hdot.1,
      decide_eq_true hdot.2, Bool.and_self]
  unfold serveHttp httpListPath at *
  rw [hp, split_two g2 hk2]
  simp only [hc, findRoute_list h he hs hl]
  rfl

/-- **C74 is false**: without a selection, the list of the objects of a type is refused, whatever is
stored. -/
theorem C74_unselected_fails [StateObject O] {objs : List (Schema × SchemaDef)} (h : PathsOk objs)
    {sch : Schema} {d : SchemaDef} (he : (sch, d) ∈ objs) (hs : d.singleton = false) (hl : ListOk objs sch)
    (jsonFails : O → Bool) (s : Store O) {req : HttpReq}
    (hp : req.path = httpListPath sch.api.group sch.api.kind)
    (hsel : ∀ x ∈ req.params, x.1 ≠ b!"selectField") :
    serveHttp jsonFails ⟨ormOps O⟩ (allRoutes objs) req s = .ret .badRequest := by
  rw [http_list h he hs hl jsonFails _ s hp]
  have : req.params.filter (fun x => decide (x.1 = b!"selectField")) = [] := by
    rw [List.filter_eq_nil_iff]
    intro x hx
    simpa using hsel x hx
  unfold listHandler
  split
  · rfl
  · split
    · rw [this]
      simp only [List.map_nil, selections, ORMClient.list, ormOps, Store.list, Store.listKeys]
      cases hr : s.reg.get sch.name with
      | none => rfl
      | some sch' => simp [listIndex, prefixesToScan, prefixesInterface, prefixesString]
    · rfl

end
section
variable {O : Type} [StateObject O]

theorem collect_map {f : Bytes → Except OrmErr O} {ks : List Bytes} {m : Bytes → Option O}
    (h : ∀ k ∈ ks, ∃ o, f k = .ok o ∧ m k = some o) :
    ∃ os, collect (ks.map f) = some os ∧ ks.map m = os.map some := by
  induction ks with
  | nil => exact ⟨[], rfl, rfl⟩
  | cons k ks ih =>
    obtain ⟨os, h1, h2⟩ := ih (fun x hx => h x (List.mem_cons_of_mem _ hx))
    obtain ⟨o, h3, h4⟩ := h k (List.mem_cons_self ..)
    exact ⟨o :: os, by simp only [List.map_cons, collect, h3, h1], by simp [h4, h2]⟩

theorem inv_http_list {s : Store O} (hi : Inv s) {objs : List (Schema × SchemaDef)} (hp : PathsOk objs)
    {sch : Schema} {d : SchemaDef} (he : (sch, d) ∈ objs) (hs : sch ∈ s.reg) (hty : KeysTyped (view s) sch)
    (hd : d.singleton = false) (hl : ListOk objs sch) {i : Indexer} (hm : i ∈ sch.indexes) (heq : 61 ∉ i.name) {v : Val}
    (hv : kindOf v = some i.kind)
    (hlen : ∀ b, i.kind.encodeValue v = .ret b → 25 + sch.name.length + i.name.length + b.length < maxLen)
    (jsonFails : O → Bool) {req : HttpReq}
    (hpath : req.path = httpListPath sch.api.group sch.api.kind) (hh : heightOk req.height = true)
    (hsel : req.params = [(b!"selectField", i.name ++ 61 :: text v)])
    (hj : ∀ o pk, view s sch.name pk = some o → jsonFails o = false) :
    let answer := serveHttp jsonFails ⟨ormOps O⟩ (allRoutes objs) req s
    ((∀ pk, ¬ hits (view s) sch.name i.name v pk) ∧ answer = .ret .badRequest) ∨
    ∃ ks os, StrictlyIncreasing ks ∧ (∀ pk, pk ∈ ks ↔ hits (view s) sch.name i.name v pk) ∧
      ks.map (view s sch.name) = os.map some ∧ answer = .ret (.list os) := by
  intro answer
  have ha : answer = _ := http_list hp he hd hl jsonFails _ s hpath
  have hreg := Registry.get_of_mem hi.reg.names hs
  have hsels : selections sch ((req.params.filter (·.1 = b!"selectField")).map (·.2)) =
      some [(i.name, text v)] := by
    rw [hsel]
    simp only [List.filter_cons, decide_true, if_true, List.filter_nil, List.map_cons, List.map_nil, selections,
      splitSelection_eq heq, Schema.indexer_of_mem (hi.schemaOk hreg) hm]
  have hlim : limitParam req.params b!"start" 0 = some 0 ∧ limitParam req.params b!"end" 100 = some 100 := by
    rw [hsel]
    exact ⟨rfl, rfl⟩
  have ha' : answer = match s.list sch.name { matchString := [(i.name, text v)], start := 0, stop := 100 } with
        | .panic => .panic
        | .ret (.error _) => .ret .badRequest
        | .ret (.ok rs) => match collect rs with
          | none => .ret .badRequest
          | some os => if os.any jsonFails then .panic else .ret (.list os) := by
    rw [ha]
    simp only [listHandler, hh, hsels, hlim.1, hlim.2, ORMClient.list, ormOps]
    rfl
  have hrange : s.list sch.name { matchString := [(i.name, text v)], start := 0, stop := 100 } =
      s.list sch.name { matchString := [(i.name, text v)] } := rfl
  rw [hrange] at ha'
  rcases inv_list_exact hi sch hs hty i hm v hv _ (.inl rfl) hlen with ⟨h1, h2⟩ | ⟨ks, h1, h2, h3, h4, h5, h6⟩
  · refine .inl ⟨h2, ?_⟩
    rw [ha']
    simp only [Store.list, h1]
  · obtain ⟨os, h7, h8⟩ := collect_map (m := view s sch.name) h6
    refine .inr ⟨ks, os, h3, h4, h8, ?_⟩
    rw [ha', h5]
    have hno : os.any jsonFails = false := by
      rw [List.any_eq_false]
      intro o ho
      have : some o ∈ os.map some := List.mem_map_of_mem ho
      rw [← h8, List.mem_map] at this
      obtain ⟨k, hk, hko⟩ := this
      simp [hj o k hko]
    simp only [h7, hno]
    rfl

/-- **C74 partial**: with one selection "field=value" of an indexed field, the list of a type answers
exactly the stored objects with the value, in the order of their keys; a bad request if there is
none.  Missing: lists without a selection, which are refused (`C74_unselected_fails`), with several
(`C74_second_selection_fails`) and with a range (`C74_range_fails`). -/
theorem C74_partial {reg : Registry} {ops : List (Op O)} {rs : List (Except OrmErr Unit)} {s : Store O}
    (h : Reached reg ops rs s) {objs : List (Schema × SchemaDef)} (hp : PathsOk objs)
    {sch : Schema} {d : SchemaDef} (he : (sch, d) ∈ objs) (hs : sch ∈ reg)
    (hty : KeysTyped (run reg Contents.empty ops).2 sch) (hd : d.singleton = false)
    (hl : ListOk objs sch) {i : Indexer} (hm : i ∈ sch.indexes) (heq : 61 ∉ i.name) {v : Val}
    (hv : kindOf v = some i.kind)
    (hlen : ∀ b, i.kind.encodeValue v = .ret b → 25 + sch.name.length + i.name.length + b.length < maxLen)
    (jsonFails : O → Bool) {req : HttpReq}
    (hpath : req.path = httpListPath sch.api.group sch.api.kind) (hh : heightOk req.height = true)
    (hsel : req.params = [(b!"selectField", i.name ++ 61 :: text v)])
    (hj : ∀ o pk, (run reg Contents.empty ops).2 sch.name pk = some o → jsonFails o = false) :
    let m := (run reg Contents.empty ops).2
    let answer := serveHttp jsonFails ⟨ormOps O⟩ (allRoutes objs) req s
    ((∀ pk, ¬ hits m sch.name i.name v pk) ∧ answer = .ret .badRequest) ∨
    ∃ ks os, StrictlyIncreasing ks ∧ (∀ pk, pk ∈ ks ↔ hits m sch.name i.name v pk) ∧
      ks.map (m sch.name) = os.map some ∧ answer = .ret (.list os) := by
  obtain ⟨hi, hr, hrun⟩ := Reached.inv h
  have hvw : (run reg Contents.empty ops).2 = view s := by rw [hrun]
  rw [hvw] at hj hty ⊢
  subst hr
  exact inv_http_list hi hp he hs hty hd hl hm heq hv hlen jsonFails hpath hh hsel hj

end

/-- Non-vacuity: listing the posts by "ann". -/
example : ∃ (s : Store Msg) (rs : List (Except OrmErr Unit)),
    Reached sampleReg [.create (post b!"p" b!"ann" 3), .create (post b!"q" b!"bob" 3)] rs s ∧
    ListOk sampleObjects postSchema ∧
    serveHttp (fun _ => false) ⟨ormOps Msg⟩ (allRoutes sampleObjects)
      { path := b!"/test/posts", params := [(b!"selectField", b!"creator=ann")] } s =
      .ret (.list [post b!"p" b!"ann" 3]) :=
  ⟨_, _, ⟨sampleReg_ok, by rfl⟩, by unfold ListOk; decide, by decide +kernel⟩

/-- **C74 is false**: of two selections only the first counts. -/
theorem C74_second_selection_fails : ∃ (s : Store Msg) (rs : List (Except OrmErr Unit)),
    Reached sampleReg [.create (post b!"p" b!"ann" 3)] rs s ∧
    serveHttp (fun _ => false) ⟨ormOps Msg⟩ (allRoutes sampleObjects)
      { path := b!"/test/posts", params := [(b!"selectField", b!"creator=ann"), (b!"selectField", b!"likes=9")] } s =
      .ret (.list [post b!"p" b!"ann" 3]) :=
  ⟨_, _, ⟨sampleReg_ok, by rfl⟩, by decide +kernel⟩

/-- **C74 is false**: the range asked for has no effect. -/
theorem C74_range_fails : ∃ (s : Store Msg) (rs : List (Except OrmErr Unit)),
    Reached sampleReg [.create (post b!"p" b!"ann" 3), .create (post b!"q" b!"ann" 3)] rs s ∧
    serveHttp (fun _ => false) ⟨ormOps Msg⟩ (allRoutes sampleObjects)
      { path := b!"/test/posts",
        params := [(b!"selectField", b!"creator=ann"), (b!"start", b!"0"), (b!"end", b!"1")] } s =
      .ret (.list [post b!"p" b!"ann" 3, post b!"q" b!"ann" 3]) :=
  ⟨_, _, ⟨sampleReg_ok, by rfl⟩, by decide +kernel⟩

/-- A singleton whose name is the plural of that of the posts. -/
def postsSchema : Schema := ⟨⟨b!"test", b!"Posts"⟩, none, []⟩

/-- **C74 is false**: a singleton registered earlier hides the list of a type with the singular
name. -/
theorem C74_hidden_fails {S O : Type} (jsonFails : O → Bool) (c : ORMClient S O) (req : HttpReq) (s : S)
    (hp : req.path = b!"/test/posts") :
    serveHttp jsonFails c (allRoutes ((postsSchema, { singleton := true }) :: sampleObjects)) req s =
      singletonHandler jsonFails c postsSchema req s := by
  unfold serveHttp
  rw [hp]
  rfl

/-! ## C75 -/

section
variable {S O : Type}

/-- **C75 partial**: the answer at any height is the answer without a height, hence right for the height of
the state stored.  Missing: all other heights (`C75_fails`). -/
theorem C75_current_state_partial (jsonFails : O → Bool) (c : ORMClient S O) (routes : List Route) (s : S)
    (req : HttpReq) (h : Bytes) (h1 : heightOk req.height = true) (h2 : heightOk h = true) :
    serveHttp jsonFails c routes { req with height := h } s = serveHttp jsonFails c routes req s := by
  simp only [serveHttp, singletonHandler, getHandler, listHandler, h1, h2]

end

theorem blocks_check :
    leadsTo (sampleLib []) [.beginBlock ⟨1, b!"main", []⟩, .endBlock 1, .commit] [.none, .updates [], .none]
      (fun m => match m tyCurrentBlock singletonID with | some (.currentBlock n) => n == 1 | _ => false) = true ∧
    leadsTo (sampleLib []) [.beginBlock ⟨1, b!"main", []⟩, .endBlock 1, .commit, .beginBlock ⟨2, b!"main", []⟩]
      [.none, .updates [], .none, .none]
      (fun m => match m tyCurrentBlock singletonID with | some (.currentBlock n) => n == 2 | _ => false) = true := by
  decide +kernel

/-- **C75 is false**: after the first block was committed, the height stored is 1; in the second block,
the answer to a request for the state at height 1 is that it is 2. -/
theorem C75_fails : ∃ (calls more : List (Call BlockReq)) (rs rs' : List (Resp Obj)) (s s' : Store Obj) (o o' : Obj),
    let lib := sampleLib []
    let req : HttpReq := { path := b!"/tmos.abci.v1alpha1/currentblock", height := b!"1" }
    Stored lib calls rs s ∧ apiAnswer lib req s = .ret (.object o) ∧
    Stored lib (calls ++ more) (rs ++ rs') s' ∧ apiAnswer lib req s' = .ret (.object o') ∧ o ≠ o' := by
  obtain ⟨m, ⟨n, a, h1, rfl⟩, hb⟩ := leadsTo_served (sample_well (table := []) rfl) blocks_check.1
  obtain ⟨m', ⟨n', a', h2, rfl⟩, hb'⟩ := leadsTo_served (sample_well (table := []) rfl) blocks_check.2
  have hs1 : Stored (sampleLib []) _ _ a.store := ⟨n, a, h1, rfl⟩
  have hs2 : Stored (sampleLib []) _ _ a'.store := ⟨n', a', h2, rfl⟩
  have g1 := C59_singletons hs1 (sch := singletonSchema (.currentBlock 0)) (d := { singleton := true })
    (of_decide_eq_true (by rfl)) rfl (req := { path := b!"/tmos.abci.v1alpha1/currentblock", height := b!"1" })
    (by decide) (by decide) (fun _ _ _ => rfl)
  have g2 := C59_singletons hs2 (sch := singletonSchema (.currentBlock 0)) (d := { singleton := true })
    (of_decide_eq_true (by rfl)) rfl (req := { path := b!"/tmos.abci.v1alpha1/currentblock", height := b!"1" })
    (by decide) (by decide) (fun _ _ _ => rfl)
  change (_ : Out (HttpResp Obj)) = match view a.store tyCurrentBlock singletonID with
      | some o => .ret (.object o)
      | none => .ret .notFound at g1
  change (_ : Out (HttpResp Obj)) = match view a'.store tyCurrentBlock singletonID with
      | some o => .ret (.object o)
      | none => .ret .notFound at g2
  split at hb
  · rename_i k hk
    split at hb'
    · rename_i k' hk'
      rw [hk] at g1
      rw [hk'] at g2
      refine ⟨_, [.beginBlock ⟨2, b!"main", []⟩], _, [.none], _, _, _, _, hs1, g1, hs2, g2, ?_⟩
      rw [beq_iff_eq] at hb hb'
      subst hb; subst hb'
      simp
    · cases hb'
  · cases hb

end Verif.Props
