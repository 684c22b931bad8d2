import Verif.Spec.HttpRequest
import Verif.Props.Http
/-!
# Malformed HTTP requests: C90
-/

namespace Verif.Props
open Verif Spec

theorem heightOk_iff (t : Bytes) : heightOk t = true ↔ HeightGiven t := by
  unfold heightOk HeightGiven
  rw [Bool.or_eq_true, decide_eq_true_eq]
  refine or_congr Iff.rfl ?_
  constructor
  · intro h
    split at h
    · rename_i n hn
      obtain ⟨h1, h2⟩ := parseUint_eq_some.1 hn
      exact ⟨n, h1, Nat.pos_of_ne_zero (by simpa using h), h2⟩
    · cases h
  · rintro ⟨n, h1, h2, h3⟩
    rw [parseUint_eq_some.2 ⟨h1, h3⟩]
    simpa using Nat.pos_iff_ne_zero.1 h2

theorem limitParam_iff (ps : List (Bytes × Bytes)) (k : Bytes) (n : Nat) :
    (limitParam ps k n).isSome = true ↔ LimitGiven ps k := by
  have hg : paramGet ps k = (((ps.filter (·.1 = k)).map (·.2)).head?).getD [] := by
    unfold paramGet
    induction ps with
    | nil => rfl
    | cons p ps ih =>
      by_cases h : p.1 = k
      · simp [h]
      · simpa [List.find?_cons, h] using ih
  unfold limitParam LimitGiven Number64
  rw [hg]
  cases ((ps.filter (·.1 = k)).map (·.2)).head? with
  | none => simp
  | some t =>
    simp only [Option.getD_some, Option.some.injEq, forall_eq']
    by_cases ht : t = []
    · simp [ht]
    · rw [if_neg ht]
      constructor
      · intro h
        obtain ⟨n, hn⟩ := Option.isSome_iff_exists.1 h
        exact .inr ⟨n, parseUint_eq_some.1 hn⟩
      · rintro (h | ⟨n, hn⟩)
        · exact absurd h ht
        · rw [parseUint_eq_some.2 hn]; rfl

theorem splitSelection_some {t f v : Bytes} (h : splitSelection t = some (f, v)) : 61 ∉ f ∧ t = f ++ 61 :: v := by
  induction t generalizing f with
  | nil => cases h
  | cons c t ih =>
    by_cases hc : c = 61
    · subst hc
      simp only [splitSelection, Option.some.injEq, Prod.mk.injEq] at h
      obtain ⟨rfl, rfl⟩ := h
      exact ⟨by simp, rfl⟩
    · rw [splitSelection] at h
      · split at h
        · rename_i f' v' h'
          simp only [Option.some.injEq, Prod.mk.injEq] at h
          obtain ⟨rfl, rfl⟩ := h
          obtain ⟨h1, h2⟩ := ih h'
          exact ⟨by simp [h1, Ne.symm hc], by simp [h2]⟩
        · cases h
      · exact hc

theorem selections_iff (sch : Schema) (ts : List Bytes) :
    (selections sch ts).isSome = true ↔ ∀ t ∈ ts, SelectionGiven sch t := by
  induction ts with
  | nil => simp [selections]
  | cons t ts ih =>
    rw [List.forall_mem_cons, ← ih, selections]
    cases hs : splitSelection t with
    | none =>
      simp only [Option.isSome_none, Bool.false_eq_true, false_iff, not_and]
      rintro ⟨i, _, v, h1, h2⟩
      rw [h2, splitSelection_eq h1] at hs
      cases hs
    | some fv =>
      obtain ⟨f, v⟩ := fv
      obtain ⟨h1, h2⟩ := splitSelection_some hs
      cases hi : sch.indexer f with
      | none =>
        simp only [hi, Option.isSome_none, Bool.false_eq_true, false_iff, not_and]
        rintro ⟨i, him, v', h3, h4⟩
        rw [h4, splitSelection_eq h3] at hs
        cases hs
        have := List.find?_eq_none.1 hi i him
        simp at this
      | some i =>
        have hm := Schema.indexer_some hi
        have hg : SelectionGiven sch t := ⟨i, hm.1, v, by rw [hm.2]; exact h1, by rw [hm.2]; exact h2⟩
        simp only [hi, hg, true_and]
        cases selections sch ts <;> simp

/-- The handler of lists refuses exactly ill-formed requests before it asks the store. -/
theorem listHandler_refuses {S O : Type} (jsonFails : O → Bool) (c : ORMClient S O) (sch : Schema)
    (req : HttpReq) (s : S) (h : ¬ ListRequestOk sch req) :
    listHandler jsonFails c sch req s = .ret .badRequest := by
  unfold listHandler
  cases hh : heightOk req.height with
  | false => rfl
  | true =>
    simp only [Bool.not_true, Bool.false_eq_true, if_false]
    split
    · rename_i a b ha hb
      split
      · rfl
      · rename_i sel hs
        refine absurd ⟨(heightOk_iff _).1 hh, (limitParam_iff _ _ 0).1 (by rw [ha]; rfl),
          (limitParam_iff _ _ 100).1 (by rw [hb]; rfl), ?_⟩ h
        intro t ht
        refine (selections_iff sch _).1 (by rw [hs]; rfl) t ?_
        exact List.mem_map.2 ⟨_, List.mem_filter.2 ⟨ht, by simp⟩, rfl⟩
    · rfl

theorem splitOn_join (sep : UInt8) (p : Bytes) : ∃ w ws, Bytes.splitOn sep p = w :: ws ∧
    (∀ x ∈ w :: ws, sep ∉ x) ∧ p = w ++ ws.flatMap (sep :: ·) := by
  induction p with
  | nil => exact ⟨[], [], rfl, by simp, rfl⟩
  | cons c p ih =>
    obtain ⟨w, ws, h1, h2, h3⟩ := ih
    by_cases hc : c = sep
    · subst hc
      refine ⟨[], w :: ws, by simp [Bytes.splitOn, h1], ?_, by simp [h3]⟩
      intro x hx
      rcases List.mem_cons.1 hx with rfl | hx
      · simp
      · exact h2 x hx
    · refine ⟨c :: w, ws, by simp [Bytes.splitOn, hc, h1], ?_, by simp [h3]⟩
      intro x hx
      rcases List.mem_cons.1 hx with rfl | hx
      · simp [Ne.symm hc, h2 w (by simp)]
      · exact h2 x (by simp [hx])

theorem toLower_s (k : Bytes) : toLower (k ++ b!"s") = toLower k ++ b!"s" := by
  simp only [toLower, List.map_append]; rfl

/-- What it means that a route of the API server is taken. -/
theorem findRoute_some {objs : List (Schema × SchemaDef)} {segs : List Bytes} {r : RouteKind}
    {vars : List (Bytes × Bytes)} (h : findRoute (allRoutes objs) segs = some (r, vars)) :
    (r = .spec ∧ segs = [b!"spec"]) ∨
    (∃ e ∈ objs, e.2.singleton = true ∧ r = .singleton e.1 ∧
      segs = [toLower e.1.api.group, toLower e.1.api.kind]) ∨
    (∃ e ∈ objs, e.2.singleton = false ∧ ∃ key, key ≠ [] ∧ r = .get e.1 e.2.primaryKey ∧
      segs = [toLower e.1.api.group, toLower e.1.api.kind, key] ∧ vars = [(toLower e.2.primaryKey, key)]) ∨
    (∃ e ∈ objs, e.2.singleton = false ∧ r = .list e.1 ∧
      segs = [toLower e.1.api.group, toLower e.1.api.kind ++ b!"s"]) := by
  have hr : ∃ x ∈ allRoutes objs, x.kind = r ∧ matchSegs x.segs segs = some vars := by
    generalize allRoutes objs = rs at h
    induction rs with
    | nil => cases h
    | cons x rs ih =>
      rw [findRoute] at h
      split at h
      · rename_i v hv
        cases h
        exact ⟨x, by simp, rfl, hv⟩
      · obtain ⟨y, hy, h2⟩ := ih h
        exact ⟨y, by simp [hy], h2⟩
  obtain ⟨x, hx, rfl, hm⟩ := hr
  have two : ∀ {a b : Bytes}, matchSegs [.lit a, .lit b] segs = some vars → segs = [a, b] ∧ vars = [] := by
    intro a b hm
    rcases segs with _ | ⟨s1, _ | ⟨s2, _ | ⟨s3, t⟩⟩⟩ <;> simp only [matchSegs] at hm <;> grind
  unfold allRoutes at hx
  rcases List.mem_append.1 hx with hx | hx
  · obtain ⟨e, he, hx⟩ := List.mem_flatMap.1 hx
    unfold objectRoutes at hx
    split at hx
    · rename_i hs
      rw [List.mem_singleton] at hx
      subst hx
      exact .inr (.inl ⟨e, he, hs, rfl, (two hm).1⟩)
    · rename_i hs
      have hs := Bool.eq_false_of_not_eq_true hs
      rcases List.mem_cons.1 hx with rfl | hx
      · refine .inr (.inr (.inl ⟨e, he, hs, ?_⟩))
        rcases segs with _ | ⟨s1, _ | ⟨s2, _ | ⟨s3, _ | ⟨s4, t⟩⟩⟩⟩ <;> simp only [matchSegs] at hm <;> grind
      · rw [List.mem_singleton] at hx
        subst hx
        exact .inr (.inr (.inr ⟨e, he, hs, rfl, by rw [← toLower_s]; exact (two hm).1⟩))
  · rw [List.mem_singleton] at hx
    subst hx
    refine .inl ⟨rfl, ?_⟩
    rcases segs with _ | ⟨s1, _ | ⟨s2, t⟩⟩ <;> simp only [matchSegs] at hm <;> grind

section
variable {S O : Type} (jsonFails : O → Bool) (c : ORMClient S O) (objs : List (Schema × SchemaDef))
  (req : HttpReq) (s : S)

/-- Every answer: a redirection, "not found", or that of the handler of the type named in the path. -/
theorem serveHttp_cases :
    (serveHttp jsonFails c (allRoutes objs) req s = .ret .redirect) ∨
    (serveHttp jsonFails c (allRoutes objs) req s = .ret .notFound) ∨
    (req.path = b!"/spec" ∧ serveHttp jsonFails c (allRoutes objs) req s = .ret .document) ∨
    (∃ e ∈ objs, e.2.singleton = true ∧ req.path = httpSingletonPath e.1.api.group e.1.api.kind ∧
      serveHttp jsonFails c (allRoutes objs) req s = singletonHandler jsonFails c e.1 req s) ∨
    (∃ e ∈ objs, e.2.singleton = false ∧ ∃ key, key ≠ [] ∧ 47 ∉ key ∧
      req.path = httpPath e.1.api.group e.1.api.kind key ∧
      serveHttp jsonFails c (allRoutes objs) req s =
        getHandler jsonFails c e.1 e.2.primaryKey [(toLower e.2.primaryKey, key)] req s) ∨
    (∃ e ∈ objs, e.2.singleton = false ∧ req.path = httpListPath e.1.api.group e.1.api.kind ∧
      serveHttp jsonFails c (allRoutes objs) req s = listHandler jsonFails c e.1 req s) := by
  obtain ⟨w, ws, h1, h2, h3⟩ := splitOn_join 47 req.path
  unfold serveHttp
  rw [h1]
  cases w with
  | cons x w => exact .inl rfl
  | nil =>
    simp only
    split
    · exact .inl rfl
    · cases hf : findRoute (allRoutes objs) ws with
      | none => exact .inr (.inl rfl)
      | some rv =>
        obtain ⟨r, vars⟩ := rv
        rcases findRoute_some hf with ⟨rfl, rfl⟩ | ⟨e, he, hs, rfl, rfl⟩ | ⟨e, he, hs, key, hk, rfl, rfl, rfl⟩ |
          ⟨e, he, hs, rfl, rfl⟩
        · exact .inr (.inr (.inl ⟨by rw [h3]; rfl, rfl⟩))
        · exact .inr (.inr (.inr (.inl ⟨e, he, hs, by rw [h3]; simp [httpSingletonPath], rfl⟩)))
        · exact .inr (.inr (.inr (.inr (.inl ⟨e, he, hs, key, hk, h2 key (by simp),
            by rw [h3]; simp [httpPath], rfl⟩))))
        · exact .inr (.inr (.inr (.inr (.inr ⟨e, he, hs, by rw [h3]; simp [httpListPath], rfl⟩))))

theorem writeObject_object {o o' : O} (h : writeObject jsonFails o = .ret (.object o')) : o = o' := by
  unfold writeObject at h
  split at h <;> cases h
  rfl

/-- **C90** An object is answered only if the path is that of a singleton or of an object with a key
that is not empty, the height is absent or a positive number of 64 bits, and the object is what the
client reads. -/
theorem C90_object_answers {o : O} (h : serveHttp jsonFails c (allRoutes objs) req s = .ret (.object o)) :
    HeightGiven req.height ∧
    ((∃ e ∈ objs, e.2.singleton = true ∧ req.path = httpSingletonPath e.1.api.group e.1.api.kind ∧
        c.get s e.1.name singletonID = .ok o) ∨
     (∃ e ∈ objs, e.2.singleton = false ∧ ∃ key id, key ≠ [] ∧ 47 ∉ key ∧
        req.path = httpPath e.1.api.group e.1.api.kind key ∧
        e.1.encodePrimaryKeyString key = .ret (some id) ∧ c.get s e.1.name id = .ok o)) := by
  rcases serveHttp_cases jsonFails c objs req s with h1 | h1 | ⟨_, h1⟩ | ⟨e, he, hs, hp, h1⟩ |
    ⟨e, he, hs, key, hk, hk', hp, h1⟩ | ⟨e, he, hs, hp, h1⟩ <;> rw [h1] at h
  · cases h
  · cases h
  · cases h
  · unfold singletonHandler at h
    split at h
    · cases h
    · rename_i hh
      refine ⟨(heightOk_iff _).1 (by simpa using hh), .inl ⟨e, he, hs, hp, ?_⟩⟩
      split at h
      · cases h
      · rename_i o' hg
        rw [← writeObject_object jsonFails h]
        exact hg
  · unfold getHandler at h
    split at h
    · cases h
    · rename_i hh
      refine ⟨(heightOk_iff _).1 (by simpa using hh), .inr ⟨e, he, hs, key, ?_⟩⟩
      split at h
      · cases h
      · rename_i x value hf
        have hv : value = key := by
          rw [List.find?_cons] at hf
          split at hf <;> cases hf
          rfl
        subst hv
        split at h
        · cases h
        · cases h
        · rename_i id hid
          split at h
          · cases h
          · rename_i o' hg
            rw [← writeObject_object jsonFails h]
            exact ⟨id, hk, hk', hp, hid, hg⟩
  · exfalso
    unfold listHandler at h
    repeat' split at h
    all_goals cases h

/-- **C90** Texts are read as primary keys of types with a primary key only. -/
theorem C90_no_key (sch : Schema) (key : Bytes) (h : sch.pk = none) : sch.encodePrimaryKeyString key = .ret none := by
  unfold Schema.encodePrimaryKeyString; rw [h]

/-- What is collected is every result, none of which is an error. -/
theorem collect_eq {rs : List (Except OrmErr O)} {os : List O} (h : collect rs = some os) : rs = os.map .ok := by
  induction rs generalizing os with
  | nil => cases h; rfl
  | cons r rs ih =>
    cases r with
    | error e => cases h
    | ok o =>
      unfold collect at h
      cases hc : collect rs with
      | none => rw [hc] at h; cases h
      | some os' =>
        rw [hc] at h
        cases h
        rw [ih hc, List.map_cons]

/-- **C90** A list is answered only if the path is that of the objects of a type and height, range and
selections are well-formed. The list is all that the client gave, and the client gave no error. -/
theorem C90_list_answers {os : List O} (h : serveHttp jsonFails c (allRoutes objs) req s = .ret (.list os)) :
    ∃ e ∈ objs, e.2.singleton = false ∧ req.path = httpListPath e.1.api.group e.1.api.kind ∧
      ListRequestOk e.1 req ∧ (∀ o ∈ os, jsonFails o = false) ∧
      ∃ opts, c.list s e.1.name opts = .ret (.ok (os.map .ok)) := by
  rcases serveHttp_cases jsonFails c objs req s with h1 | h1 | ⟨_, h1⟩ | ⟨e, he, hs, hp, h1⟩ |
    ⟨e, he, hs, key, hk, hk', hp, h1⟩ | ⟨e, he, hs, hp, h1⟩ <;> rw [h1] at h
  · cases h
  · cases h
  · cases h
  · unfold singletonHandler writeObject at h
    repeat' split at h
    all_goals cases h
  · unfold getHandler writeObject at h
    repeat' split at h
    all_goals cases h
  · refine ⟨e, he, hs, hp, ?_, ?_⟩
    · by_contra hn
      rw [listHandler_refuses jsonFails c e.1 req s hn] at h
      cases h
    · unfold listHandler at h
      repeat' split at h
      all_goals first | (cases h; done) | skip
      rename_i rs hrs _ os' hc hj
      cases h
      rw [← collect_eq hc]
      exact ⟨fun o ho => by
        by_contra hn
        exact hj (List.any_eq_true.2 ⟨o, ho, by simpa using hn⟩), _, hrs⟩

/-- **C90** Every other path is not found, or redirected. -/
theorem C90_other_paths (h1 : ¬ SingletonPath objs req.path) (h2 : ¬ ObjectPath objs req.path)
    (h3 : ¬ ListPath objs req.path) (h4 : req.path ≠ b!"/spec") :
    serveHttp jsonFails c (allRoutes objs) req s = .ret .notFound ∨
    serveHttp jsonFails c (allRoutes objs) req s = .ret .redirect := by
  rcases serveHttp_cases jsonFails c objs req s with h | h | ⟨h, _⟩ | ⟨e, he, hs, hp, _⟩ |
    ⟨e, he, hs, key, hk, hk', hp, _⟩ | ⟨e, he, hs, hp, _⟩
  · exact .inr h
  · exact .inl h
  · exact absurd h h4
  · exact absurd ⟨e, he, hs, hp⟩ h1
  · exact absurd ⟨e, he, hs, key, hk, hk', hp⟩ h2
  · exact absurd ⟨e, he, hs, hp⟩ h3

/-- **C90** Whatever the path, a request with a malformed height gets no data: a bad request, unless
it is for the document, redirected or not found anyway. -/
theorem C90_bad_height (h : ¬ HeightGiven req.height) (hp : req.path ≠ b!"/spec") :
    serveHttp jsonFails c (allRoutes objs) req s = .ret .badRequest ∨
    serveHttp jsonFails c (allRoutes objs) req s = .ret .notFound ∨
    serveHttp jsonFails c (allRoutes objs) req s = .ret .redirect := by
  have hh : heightOk req.height = false := by
    rw [← Bool.not_eq_true, heightOk_iff]; exact h
  rcases serveHttp_cases jsonFails c objs req s with h | h | ⟨h, _⟩ | ⟨e, he, hs, _, h⟩ |
    ⟨e, he, hs, key, hk, hk', _, h⟩ | ⟨e, he, hs, _, h⟩
  · exact .inr (.inr h)
  · exact .inr (.inl h)
  · exact absurd h hp
  · left; rw [h]; simp [singletonHandler, hh]
  · left; rw [h]; simp [getHandler, hh]
  · left; rw [h]; simp [listHandler, hh]

end
section
variable {S O : Type}

/-- **C90** On the path of an object, a malformed height is answered by a bad request. -/
theorem C90_object_refused {objs : List (Schema × SchemaDef)} (h : PathsOk objs) {e : Schema × SchemaDef}
    (he : e ∈ objs) (hs : e.2.singleton = false) {key : Bytes} (hk : PathName key) (jsonFails : O → Bool)
    (c : ORMClient S O) (s : S) {req : HttpReq} (hp : req.path = httpPath e.1.api.group e.1.api.kind key)
    (hh : ¬ HeightGiven req.height) :
    serveHttp jsonFails c (allRoutes objs) req s = .ret .badRequest := by
  rw [http_object h he hs hk jsonFails c s hp]
  have : heightOk req.height = false := by rw [← Bool.not_eq_true, heightOk_iff]; exact hh
  simp [getHandler, this]

/-- **C90** On the path of the objects of a type, a malformed height, range or selection is answered by
a bad request. -/
theorem C90_list_refused {objs : List (Schema × SchemaDef)} (h : PathsOk objs) {e : Schema × SchemaDef}
    (he : e ∈ objs) (hs : e.2.singleton = false) (hl : ListOk objs e.1) (jsonFails : O → Bool)
    (c : ORMClient S O) (s : S) {req : HttpReq} (hp : req.path = httpListPath e.1.api.group e.1.api.kind)
    (hr : ¬ ListRequestOk e.1 req) :
    serveHttp jsonFails c (allRoutes objs) req s = .ret .badRequest := by
  rw [http_list h he hs hl jsonFails c s hp]
  exact listHandler_refuses jsonFails c e.1 req s hr

/-- **C90** The text of a key that the type cannot have is answered by a bad request. -/
theorem C90_key_refused {objs : List (Schema × SchemaDef)} (h : PathsOk objs) {e : Schema × SchemaDef}
    (he : e ∈ objs) (hs : e.2.singleton = false) {key : Bytes} (hk : PathName key) (jsonFails : O → Bool)
    (c : ORMClient S O) (s : S) {req : HttpReq} (hp : req.path = httpPath e.1.api.group e.1.api.kind key)
    (hb : e.1.encodePrimaryKeyString key = .ret none) :
    serveHttp jsonFails c (allRoutes objs) req s = .ret .badRequest := by
  rw [http_object h he hs hk jsonFails c s hp]
  unfold getHandler
  split
  · rfl
  · split
    · rfl
    · rename_i x value hf
      have hv : value = key := by
        rw [List.find?_cons] at hf
        split at hf <;> cases hf
        rfl
      rw [hv, hb]

end

section
variable {O : Type} [StateObject O]

/-- **C74** The list of a type with a well-formed range and any number of selections, of values the
fields can have, is that with the first selection alone.  So several selections and a range never
restrict the answer. -/
theorem C74_first_selection_partial {objs : List (Schema × SchemaDef)} (h : PathsOk objs) {sch : Schema}
    {d : SchemaDef} (he : (sch, d) ∈ objs) (hs : d.singleton = false) (hl : ListOk objs sch) (jsonFails : O → Bool)
    (s : Store O) (hreg : s.reg.get sch.name = some sch) {req req' : HttpReq}
    (hp : req.path = httpListPath sch.api.group sch.api.kind) (hp' : req'.path = req.path)
    (hr : ListRequestOk sch req) (hh' : req'.height = req.height) {t : Bytes} {ts : List Bytes}
    (hsel : (req.params.filter (·.1 = b!"selectField")).map (·.2) = t :: ts)
    (hsel' : req'.params = [(b!"selectField", t)])
    (hv : ∀ t ∈ ts, ∀ i ∈ sch.indexes, ∀ v, 61 ∉ i.name → t = i.name ++ 61 :: v →
      ∃ b, i.encodeString v = .ret (some b))
    (hn : (sch.indexes.map (·.name)).Nodup) :
    serveHttp jsonFails ⟨ormOps O⟩ (allRoutes objs) req s = serveHttp jsonFails ⟨ormOps O⟩ (allRoutes objs) req' s := by
  rw [http_list h he hs hl jsonFails _ s hp, http_list h he hs hl jsonFails _ s (hp'.trans hp)]
  have hidx : ∀ i ∈ sch.indexes, sch.indexer i.name = some i := by
    intro i hi
    cases hf : sch.indexer i.name with
    | none => exact absurd (List.find?_eq_none.1 hf i hi) (by simp)
    | some j =>
      have hj := Schema.indexer_some hf
      rw [inj_of_nodup_map hn hj.1 hi hj.2]
  have hsels : ∀ ts : List Bytes, (∀ t ∈ ts, SelectionGiven sch t) → ∃ sel, selections sch ts = some sel :=
    fun ts h => Option.isSome_iff_exists.1 ((selections_iff sch ts).2 h)
  have hall : ∀ x ∈ t :: ts, SelectionGiven sch x := by
    intro x hx
    rw [← hsel] at hx
    obtain ⟨⟨n, y⟩, hm, rfl⟩ := List.mem_map.1 hx
    obtain ⟨hm, hn⟩ := List.mem_filter.1 hm
    simp only [decide_eq_true_eq] at hn
    subst hn
    exact hr.selections _ hm
  obtain ⟨i, him, v, h61, rfl⟩ := hall t (by simp)
  obtain ⟨sel, hrest⟩ := hsels ts (fun x hx => hall x (by simp [hx]))
  have hsel1 : selections sch ((req.params.filter (·.1 = b!"selectField")).map (·.2)) = some ((i.name, v) :: sel) := by
    rw [hsel, selections, splitSelection_eq h61]
    simp only [hidx i him, hrest]
  have hsel2 : selections sch ((req'.params.filter (·.1 = b!"selectField")).map (·.2)) = some [(i.name, v)] := by
    rw [hsel']
    simp [selections, splitSelection_eq h61, hidx i him]
  have hkeys : ∀ a b, s.listKeys sch.name { matchString := (i.name, v) :: sel, start := a, stop := b } =
      s.listKeys sch.name { matchString := [(i.name, v)] } := by
    intro a b
    have hps : ∃ ks, prefixesString sch sel = .ret (.ok ks) := by
      have hall' : ∀ x ∈ ts, SelectionGiven sch x := fun x hx => hall x (by simp [hx])
      clear hsel1 hsel2 hsel hr hall
      induction ts generalizing sel with
      | nil => cases hrest; exact ⟨_, rfl⟩
      | cons x ts ih =>
        rw [selections] at hrest
        cases hx : splitSelection x with
        | none => simp [hx] at hrest
        | some fv =>
          obtain ⟨f, w⟩ := fv
          obtain ⟨j, hj, w', hj', rfl⟩ := hall' x (by simp)
          rw [splitSelection_eq hj'] at hx
          cases hx
          obtain ⟨b, hb⟩ := hv _ (by simp) j hj w hj' rfl
          simp only [splitSelection_eq hj', hidx j hj] at hrest
          cases hq : selections sch ts with
          | none => simp [hq] at hrest
          | some rest =>
            simp only [hq, Option.some.injEq] at hrest
            subst hrest
            obtain ⟨ks, hks⟩ := ih (fun y hy => hv y (by simp [hy])) rest hq (fun y hy => hall' y (by simp [hy]))
            exact ⟨⟨sch.name, j.name, b, []⟩ :: ks, by simp [prefixesString, hidx j hj, hb, hks]⟩
    obtain ⟨ks, hks⟩ := hps
    simp only [Store.listKeys, hreg, listIndex, prefixesToScan, prefixesInterface, prefixesString, hidx i him, hks]
    cases i.encodeString v with
    | panic => rfl
    | ret o => cases o <;> simp
  have hst := Option.isSome_iff_exists.1 ((limitParam_iff req.params b!"start" 0).2 hr.start)
  have hen := Option.isSome_iff_exists.1 ((limitParam_iff req.params b!"end" 100).2 hr.stop)
  obtain ⟨a, ha⟩ := hst
  obtain ⟨b, hb⟩ := hen
  have ha' : limitParam req'.params b!"start" 0 = some 0 := by rw [hsel']; rfl
  have hb' : limitParam req'.params b!"end" 100 = some 100 := by rw [hsel']; rfl
  have hlist : ∀ a b, s.list sch.name { matchString := (i.name, v) :: sel, start := a, stop := b } =
      s.list sch.name { matchString := [(i.name, v)], start := 0, stop := 100 } := by
    intro a b
    simp only [Store.list, hkeys a b]
    rfl
  simp only [listHandler, hh', hsel1, hsel2, ha, hb, ha', hb', ORMClient.list, ormOps, hlist]

end

/-- Non-vacuity: well-formed and malformed requests for posts. -/
example : HeightGiven [] ∧ HeightGiven b!"7" ∧ ¬ HeightGiven b!"0" ∧ ¬ HeightGiven b!"x" ∧
    SelectionGiven postSchema b!"creator=ann" ∧ ¬ SelectionGiven postSchema b!"creator" := by
  refine ⟨(heightOk_iff _).1 rfl, (heightOk_iff _).1 rfl, ?_, ?_, ?_, ?_⟩
  · rw [← heightOk_iff]; decide
  · rw [← heightOk_iff]; decide
  · exact (selections_iff postSchema [b!"creator=ann"]).1 rfl _ (by simp)
  · intro h
    have := (selections_iff postSchema [b!"creator"]).2 (by simpa using h)
    exact absurd this (by decide)

/-- Non-vacuity: two selections and a range, answered as with the first alone. -/
example : ∃ (s : Store Msg) (rs : List (Except OrmErr Unit)),
    Reached sampleReg [.create (post b!"p" b!"ann" 3), .create (post b!"q" b!"bob" 3)] rs s ∧
    serveHttp (fun _ => false) ⟨ormOps Msg⟩ (allRoutes sampleObjects)
      { path := b!"/test/posts",
        params := [(b!"selectField", b!"creator=ann"), (b!"end", b!"0"), (b!"selectField", b!"likes=4")] } s =
      .ret (.list [post b!"p" b!"ann" 3]) ∧
    serveHttp (fun _ => false) ⟨ormOps Msg⟩ (allRoutes sampleObjects)
      { path := b!"/test/posts", params := [(b!"selectField", b!"creator=ann"), (b!"selectField", b!"likes")] } s =
      .ret .badRequest ∧
    serveHttp (fun _ => false) ⟨ormOps Msg⟩ (allRoutes sampleObjects) { path := b!"/test/post/" } s = .ret .notFound :=
  ⟨_, _, ⟨sampleReg_ok, by rfl⟩, by decide +kernel, by decide +kernel, by decide +kernel⟩

end Verif.Props
