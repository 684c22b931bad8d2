import Verif.Spec.HttpRequest
import Verif.Proofs.ProtosOk
import Verif.Spec.SampleApp
/-!
# Properties of the OpenAPI document
-/

namespace Verif.Props

open Verif Spec

variable {env : DocEnv} {ord : MapOrder}

/-! ## C84: collecting the messages of a state object ends -/

/-- C84: the call returns whatever the order of iteration is if and only if messages of the type cannot
be nested without end. -/
theorem C84_every_order_iff (hn : NamesKnown env) (m : MsgOf) :
    (∀ ord, IsOrder ord → Terminates env ord m) ↔ ¬ Endless env m := by
  constructor
  · rintro h ⟨c, rfl, hc⟩
    obtain ⟨fuel, hf⟩ := h (chase c) (isOrder_chase c)
    rw [chase_diverges hn hc fuel 0 {} rfl rfl] at hf
    cases hf
  · intro h ord ho
    obtain ⟨fuel, g, hg⟩ := addRequired_of_acc (ord := ord) ho (acc_of_not_endless h) {}
    exact ⟨fuel, by rw [hg]; rfl⟩

/-- C84: there is an order of iteration with which the call returns if and only if every message in it
contains, somewhere, a message without message fields. -/
theorem C84_some_order_iff (hn : NamesKnown env) {m : MsgOf} (hm : env m.desc.fullName = m)
    (hf : FinitelyMany env m) :
    (∃ ord, IsOrder ord ∧ Terminates env ord m) ↔ ∀ x, Reaches env m x → ∃ y, Reaches env x y ∧ Flat y := by
  constructor
  · rintro ⟨ord, ho, fuel, hs⟩ x hx
    obtain ⟨g, hg⟩ := Option.isSome_iff_exists.1 hs
    by_contra hno
    have hst : Stuck env x := fun y hy hfl => hno ⟨y, hy, hfl⟩
    have hr := (requires_empty (env := env)).add hn ho hg
    have hmem : ∀ y, Reaches env m y → y.desc.fullName ∈ g.marked := by
      intro y hy
      induction hy with
      | refl => exact hr.1.rooted m (by simp)
      | tail hb hmen ih =>
        obtain ⟨z, hz, he⟩ := (hr.1.names _).1 ih
        obtain ⟨r, hr', hz'⟩ := hr.1.reached z hz
        have hr'' : r = m := by simpa using hr'
        subst hr''
        have hzb := known_of_reaches hn hm hz'
        rw [he, known_of_reaches hn hm hb] at hzb
        subst hzb
        obtain ⟨n, hn', rfl⟩ := mentions_iff.1 hmen
        rw [hn]
        exact hr.1.closed _ hz n hn'
    have := addRequired_not_stuck hn ho fuel {} m g hm (by simp) hg _ (hmem x hx)
    rw [known_of_reaches hn hm hx] at this
    exact this hst
  · intro h
    obtain ⟨names, hnames⟩ := hf
    obtain ⟨fuel, g, hg⟩ := nearestFirst_terminates hn (names := names) _ _ {} m hnames h (Nat.le_refl _) (Nat.le_refl _)
    exact ⟨nearestFirst env, isOrder_nearestFirst, fuel, by rw [hg]; rfl⟩

/-- C84, what holds: the API server collects the messages of its state objects and builds the document
if none of their types can be nested without end. -/
theorem C84_partial (ho : IsOrder ord) (objs : List ApiObject)
    (h : ∀ o ∈ objs, ∀ r ∈ answers o, ¬ Endless env r) : ∃ fuel d, apiDocument env ord fuel objs = some d := by
  suffices hs : ∀ (objs : List ApiObject) (g : Gen), (∀ o ∈ objs, ∀ r ∈ answers o, ¬ Endless env r) →
      ∃ fuel g', addApiObjects env ord fuel g objs = some g' by
    obtain ⟨fuel, g, hg⟩ := hs objs {} h
    exact ⟨fuel, g.build env, by unfold apiDocument; rw [hg]; rfl⟩
  have one : ∀ (o : ApiObject) (g : Gen), (∀ r ∈ answers o, ¬ Endless env r) →
      ∃ fuel g', addApiObject env ord fuel g o = some g' := by
    intro o g h
    unfold addApiObject
    by_cases hs : o.schema.singleton = true
    · simp only [if_pos hs]
      exact addRequired_of_acc ho (acc_of_not_endless (h _ (by unfold answers; rw [if_pos hs]; simp))) _
    · simp only [if_neg hs]
      obtain ⟨f1, g1, h1⟩ := addRequired_of_acc (ord := ord) ho
        (acc_of_not_endless (h o.msg (by unfold answers; rw [if_neg hs]; simp)))
        (g.addOp ⟨b!"get." ++ o.api.name, instancePath o.api o.schema.primaryKey, [], o.msg⟩)
      obtain ⟨f2, g2, h2⟩ := addRequired_of_acc (ord := ord) ho
        (acc_of_not_endless (h (forgeList o.msg) (by unfold answers; rw [if_neg hs]; simp)))
        (g1.addOp ⟨b!"list." ++ o.api.name, listPath o.api, listParameters, forgeList o.msg⟩)
      exact ⟨max f1 f2, g2, by
        rw [addRequired_mono (Nat.le_max_left f1 f2) h1]
        exact addRequired_mono (Nat.le_max_right f1 f2) h2⟩
  have mono1 : ∀ {f f' : Nat}, f ≤ f' → ∀ {g g' : Gen} {o : ApiObject}, addApiObject env ord f g o = some g' →
      addApiObject env ord f' g o = some g' := by
    intro f f' hf g g' o e
    unfold addApiObject at e ⊢
    split at e
    · rename_i hs; rw [if_pos hs]; exact addRequired_mono hf e
    · rename_i hs
      rw [if_neg hs]
      split at e
      · cases e
      · rename_i e1
        rw [addRequired_mono hf e1]
        exact addRequired_mono hf e
  have mono : ∀ {f f' : Nat}, f ≤ f' → ∀ (objs : List ApiObject) {g g' : Gen}, addApiObjects env ord f g objs = some g' →
      addApiObjects env ord f' g objs = some g' := by
    intro f f' hf objs
    induction objs with
    | nil => intro g g' e; exact e
    | cons o os ih =>
      intro g g' e
      rw [addApiObjects] at e ⊢
      split at e
      · cases e
      · rename_i e1
        rw [mono1 hf e1]
        exact ih e
  intro objs
  induction objs with
  | nil => intro g _; exact ⟨0, g, rfl⟩
  | cons o os ih =>
    intro g h
    obtain ⟨f1, g1, h1⟩ := one o g (h o List.mem_cons_self)
    obtain ⟨f2, g2, h2⟩ := ih g1 fun o' ho' => h o' (List.mem_cons_of_mem _ ho')
    refine ⟨max f1 f2, g2, ?_⟩
    rw [addApiObjects, mono1 (Nat.le_max_left f1 f2) h1]
    exact mono (Nat.le_max_right f1 f2) os h2

theorem docEnv_known : NamesKnown docEnv := by
  intro n
  unfold docEnv
  cases h : docMessages.find? fun m => m.desc.fullName = n with
  | none => rfl
  | some m => simpa using List.find?_some h

/-- The keys in the order of the fields. -/
def fieldOrder : MapOrder := fun _ l => l

theorem isOrder_fieldOrder : IsOrder fieldOrder := fun _ _ => List.Perm.refl _

/-- A message with a field of its own type and no other message field. -/
def nodeEnv : DocEnv := fun n => ⟨n, ⟨n, [⟨b!"next", .message, .single, n⟩]⟩, .mk b!"node.proto" b!"p" [] [] []⟩

/-- C84, what fails always: with such a message the call returns with no order of iteration. -/
theorem C84_fails (ord : MapOrder) (ho : IsOrder ord) (n : Bytes) : ¬ Terminates nodeEnv ord (nodeEnv n) := by
  intro h
  have hreach : ∀ x, Reaches nodeEnv (nodeEnv n) x → x = nodeEnv n := by
    intro x hx
    induction hx with
    | refl => rfl
    | tail _ hm ih =>
      obtain ⟨f, hf, _, rfl⟩ := hm
      rw [ih] at hf
      rw [List.mem_singleton.1 hf]
  obtain ⟨y, hy, hfl⟩ := (C84_some_order_iff (fun _ => rfl) rfl ⟨[n], fun x hx => by rw [hreach x hx]; simp [nodeEnv]⟩).1
    ⟨ord, ho, h⟩ (nodeEnv n) Relation.ReflTransGen.refl
  rw [hreach y hy] at hfl
  exact (hfl ⟨b!"next", .message, .single, n⟩ (by simp [nodeEnv])).1 rfl

/-! ## C85: the document describes the messages of the answers -/

/-- C85: whatever the order of iteration is, the messages collected are those that occur in answers. -/
theorem C85_required (hn : NamesKnown env) (ho : IsOrder ord) {objs : List ApiObject} (hu : NamesUnique env objs)
    {fuel : Nat} {g : Gen} (h : addApiObjects env ord fuel {} objs = some g) (m : MsgOf) :
    m ∈ g.objects ↔ Answered env objs m :=
  mem_objects_iff hn hu (build_requires hn ho h).1 m

/-- The files of the document. -/
theorem mem_files (hn : NamesKnown env) {objs : List ApiObject} (hu : NamesUnique env objs)
    (hp : PathsUnique env objs) {g : Gen} (h : Requires env (objs.flatMap answers) g) (f : DocFile) :
    f ∈ g.files ↔ Needed env objs f := by
  refine ⟨needed_of_mem_files h, ?_⟩
  rintro ⟨x, hx, hw⟩
  refine (mem_addDeps ?_ f).2 ⟨x.file, List.mem_map.2 ⟨x, (mem_objects_iff hn hu h x).2 hx, rfl⟩, hw⟩
  intro a ha b hb a' b' hwa hwb
  obtain ⟨y, hy, rfl⟩ := List.mem_map.1 ha
  obtain ⟨z, hz, rfl⟩ := List.mem_map.1 hb
  exact hp a' b' ⟨y, (mem_objects_iff hn hu h y).1 hy, hwa⟩ ⟨z, (mem_objects_iff hn hu h z).1 hz, hwb⟩

/-- C85: the schemas of the document are those of the messages that occur in answers, if those are all
declared at the top level and names and paths are unique. -/
theorem C85_schemas_partial (hn : NamesKnown env) (ho : IsOrder ord) {objs : List ApiObject}
    (hu : NamesUnique env objs) (ht : TopLevel env objs) (hp : PathsUnique env objs) (hd : DeclaredOnce env objs)
    {fuel : Nat} {d : Document} (h : apiDocument env ord fuel objs = some d)
    (s : Bytes × List (Bytes × FieldSchema)) :
    s ∈ d.schemas ↔ ∃ x, Answered env objs x ∧
      s = (x.desc.fullName, x.desc.fields.map fun f => (f.json, (fieldSchema env f).1)) := by
  obtain ⟨g, hg, rfl⟩ := apiDocument_some h
  obtain ⟨hr, hops⟩ := build_requires hn ho hg
  rw [(build_schemas hn hu hd hr hops).1]
  constructor
  · rintro ⟨x, hx, _, he⟩; exact ⟨x, hx, he⟩
  · rintro ⟨x, hx, he⟩
    exact ⟨x, hx, ⟨x.file, (mem_files hn hu hp hr _).2 ⟨x, hx, .refl _⟩, _, (ht x hx).1, rfl⟩, he⟩

/-! ## C86: every reference in the document resolves -/

/-- C86, what holds: every reference names a schema of the document, if the messages that occur in
answers are all declared at the top level of files with a package, and names and paths are unique. -/
theorem C86_partial (hn : NamesKnown env) (ho : IsOrder ord) {objs : List ApiObject}
    (hu : NamesUnique env objs) (ht : TopLevel env objs) (hp : PathsUnique env objs) (hd : DeclaredOnce env objs)
    {fuel : Nat} {d : Document} (h : apiDocument env ord fuel objs = some d) : ∀ r ∈ docRefs d, Resolves d r := by
  have hs := C85_schemas_partial hn ho hu ht hp hd h
  have hres : ∀ x, Answered env objs x → Resolves d (schemaRef x.typeName) := by
    intro x hx
    refine ⟨_, (hs _).2 ⟨x, hx, rfl⟩, ?_⟩
    unfold schemaRef
    rw [(ht x hx).2]
    rfl
  intro r hr
  rcases List.mem_append.1 hr with hr | hr
  · obtain ⟨⟨p, op⟩, hop, hr⟩ := List.mem_flatMap.1 hr
    obtain ⟨g, hg, rfl⟩ := apiDocument_some h
    obtain ⟨_, hops⟩ := build_requires hn ho hg
    have hop' : (p, op) ∈ g.files.foldl (fun ps _ => addRawOps ps g.ops) [] := mem_sortNamed.1 hop
    rcases mem_passes hop' with h' | ⟨raw, hraw, he⟩
    · cases h'
    · obtain ⟨rfl, rfl⟩ := Prod.mk.inj he
      rw [hops] at hraw
      have hans := apiOps_answered (env := env) hraw
      rcases responseContent_cases raw.response with ⟨_, h'⟩ | h'
      · simp only [Operation.refs, RawOp.operation] at hr
        cases hc : (responseContent raw.response).1 with
        | json r => exact absurd hc (h' r)
        | empty => rw [hc] at *; cases hr
        | octets => rw [hc] at *; cases hr
      · simp only [Operation.refs, RawOp.operation, h', List.mem_singleton] at hr
        rw [hr]
        exact hres _ hans
  · obtain ⟨s, hs', hr⟩ := List.mem_flatMap.1 hr
    obtain ⟨x, hx, rfl⟩ := (hs s).1 hs'
    obtain ⟨p, hp', hr⟩ := List.mem_flatMap.1 hr
    obtain ⟨f, hf, rfl⟩ := List.mem_map.1 hp'
    rcases fieldSchema_refs (env := env) f with ⟨h', _⟩ | ⟨hk, h', _⟩
    · rw [h'] at hr; cases hr
    · rw [h'] at hr
      rw [List.mem_singleton.1 hr]
      exact hres _ (answered_field hx hf hk)

/-- A type name that is looked for, as a reference. -/
theorem schemaRef_typeName (x : MsgOf) : schemaRef x.typeName = b!"#/components/schemas/" ++ topName x.file x.name := rfl

theorem typeName_iff {f : DocFile} {n : Bytes} {y : MsgOf} :
    typeNameIn f n = y.typeName ↔ topName f n = topName y.file y.name :=
  ⟨fun h => (List.cons.inj h).2, fun h => congrArg (46 :: ·) h⟩

/-- C86: when the reference to a message resolves.  It is made of the package and the short name of the
message, and the schemas are those of the top-level messages of the files of the document, of which
the forged ones are the first of their paths. -/
theorem C86_iff (hn : NamesKnown env) (ho : IsOrder ord) {objs : List ApiObject} (hu : NamesUnique env objs)
    (hd : DeclaredOnce env objs) (hf : FilesOk env objs) {fuel : Nat} {d : Document}
    (h : apiDocument env ord fuel objs = some d) (x : MsgOf) :
    Resolves d (schemaRef x.typeName) ↔ ∃ y, Answered env objs y ∧ y.desc.fullName = topName x.file x.name ∧
      ∃ f, (Compiled env objs f ∨ ∃ o, FirstOfFile objs o ∧ f = (forgeList o.msg).file) ∧
        ∃ m ∈ f.messages, topName f m.1 = topName y.file y.name := by
  obtain ⟨g, hg, rfl⟩ := apiDocument_some h
  have hs := build_schemas_lists hn ho hu hd hf hg
  constructor
  · rintro ⟨s, hsm, he⟩
    obtain ⟨y, hy, ⟨f, hfc, m, hm, hfm⟩, rfl⟩ := (hs s).1 hsm
    rw [schemaRef_typeName] at he
    exact ⟨y, hy, (List.append_cancel_left he).symm, f, hfc, m, hm, typeName_iff.1 hfm⟩
  · rintro ⟨y, hy, he, f, hfc, m, hm, hfm⟩
    exact ⟨_, (hs _).2 ⟨y, hy, ⟨f, hfc, m, hm, typeName_iff.2 hfm⟩, rfl⟩, by rw [schemaRef_typeName, ← he]⟩

/-- C85: which schemas there are, without conditions on where messages are declared: those of the messages that occur in
answers and have the name of a top-level message of a file of the document. -/
theorem C85_schemas_iff (hn : NamesKnown env) (ho : IsOrder ord) {objs : List ApiObject} (hu : NamesUnique env objs)
    (hd : DeclaredOnce env objs) (hf : FilesOk env objs) {fuel : Nat} {d : Document}
    (h : apiDocument env ord fuel objs = some d) (s : Bytes × List (Bytes × FieldSchema)) :
    s ∈ d.schemas ↔ ∃ x, Answered env objs x ∧
      (∃ f, (Compiled env objs f ∨ ∃ o, FirstOfFile objs o ∧ f = (forgeList o.msg).file) ∧
        ∃ m ∈ f.messages, topName f m.1 = topName x.file x.name) ∧
      s = (x.desc.fullName, x.desc.fields.map fun f => (f.json, (fieldSchema env f).1)) := by
  obtain ⟨g, hg, rfl⟩ := apiDocument_some h
  rw [build_schemas_lists hn ho hu hd hf hg]
  constructor
  · rintro ⟨x, hx, ⟨f, hfc, m, hm, hfm⟩, he⟩
    exact ⟨x, hx, ⟨f, hfc, m, hm, typeName_iff.1 hfm⟩, he⟩
  · rintro ⟨x, hx, ⟨f, hfc, m, hm, hfm⟩, he⟩
    exact ⟨x, hx, ⟨f, hfc, m, hm, typeName_iff.2 hfm⟩, he⟩

/-- C86: the reference to the list of an object resolves if and only if no earlier object with a list is
declared in the same file. -/
theorem C86_lists_iff (hn : NamesKnown env) (ho : IsOrder ord) {objs : List ApiObject} (hu : NamesUnique env objs)
    (hd : DeclaredOnce env objs) (hf : FilesOk env objs) {fuel : Nat} {d : Document}
    (h : apiDocument env ord fuel objs = some d) {o : ApiObject} (hm : o ∈ objs) (hs : o.schema.singleton = false) :
    Resolves d (schemaRef (forgeList o.msg).typeName) ↔
      ∃ o', FirstOfFile objs o' ∧ forgeList o'.msg = forgeList o.msg := by
  have hans : Answered env objs (forgeList o.msg) := (answered_cases hn hu).2 (Or.inr ⟨o, hm, hs, rfl⟩)
  rw [C86_iff hn ho hu hd hf h]
  constructor
  · rintro ⟨y, hy, he, f, hfc, m, hm', hfm⟩
    rw [forgeList_topName] at he
    obtain rfl := hu y _ hy hans he
    rcases hfc with hfc | ⟨o', ho', rfl⟩
    · refine absurd ?_ (hf.declares f hfc m hm')
      rw [hfm, forgeList_topName]
      exact forgeList_dynamic _
    · refine ⟨o', ho', ?_⟩
      rw [forgeList_messages, List.mem_singleton] at hm'
      subst hm'
      rw [forgeList_topName, forgeList_topName] at hfm
      obtain ⟨pre, post, hobjs, hs', _⟩ := ho'
      exact hu _ _ ((answered_cases hn hu).2 (Or.inr ⟨o', by rw [hobjs]; simp, hs', rfl⟩)) hans hfm
  · rintro ⟨o', ho', he⟩
    refine ⟨forgeList o.msg, hans, rfl, (forgeList o'.msg).file, Or.inr ⟨o', ho', rfl⟩, _,
      by rw [forgeList_messages]; exact List.mem_singleton_self _, ?_⟩
    rw [he]

/-- C86, what fails: of two objects with lists that are declared in one file, the reference to the list of
the second never resolves. -/
theorem C86_lists_fails (hn : NamesKnown env) (ho : IsOrder ord) {objs : List ApiObject} (hu : NamesUnique env objs)
    (hd : DeclaredOnce env objs) (hf : FilesOk env objs) {fuel : Nat} {d : Document}
    (h : apiDocument env ord fuel objs = some d) {pre mid post : List ApiObject} {o o' : ApiObject}
    (he : objs = pre ++ o :: mid ++ o' :: post) (hs : o.schema.singleton = false) (hs' : o'.schema.singleton = false)
    (hp : o.msg.file.path = o'.msg.file.path) (hpre : ∀ a ∈ pre, a.schema.singleton = false →
      a.msg.file.path ≠ o.msg.file.path) (hne : forgeList o.msg ≠ forgeList o'.msg) :
    ¬ Resolves d (schemaRef (forgeList o'.msg).typeName) := by
  rw [C86_lists_iff hn ho hu hd hf h (by rw [he]; simp) hs']
  rintro ⟨a, ⟨apre, apost, hobjs, has, hapre⟩, ha⟩
  have hap : a.msg.file.path = o.msg.file.path := by
    have := congrArg (fun m => m.file.path) ha
    simp only [forgeList_path] at this
    rw [List.append_cancel_left this, hp]
  rw [he, List.append_assoc] at hobjs
  rcases List.append_eq_append_iff.1 hobjs with ⟨l, hl1, hl2⟩ | ⟨l, hl1, hl2⟩
  · cases l with
    | nil =>
      obtain ⟨rfl, _⟩ := List.cons.inj hl2
      exact hne ha
    | cons b l =>
      obtain ⟨rfl, _⟩ := List.cons.inj hl2
      exact hapre o (by rw [hl1]; simp) hs hap.symm
  · cases l with
    | nil =>
      obtain ⟨rfl, _⟩ := List.cons.inj hl2
      exact hne ha
    | cons b l =>
      obtain ⟨rfl, _⟩ := List.cons.inj hl2
      exact hpre a (by rw [hl1]; simp) has hap

/-- C85, what fails: of two objects with lists that are declared in one file, the list of the second occurs in an answer and
has no schema. -/
theorem C85_lists_fails (hn : NamesKnown env) (ho : IsOrder ord) {objs : List ApiObject} (hu : NamesUnique env objs)
    (hd : DeclaredOnce env objs) (hf : FilesOk env objs) {fuel : Nat} {d : Document}
    (h : apiDocument env ord fuel objs = some d) {pre mid post : List ApiObject} {o o' : ApiObject}
    (he : objs = pre ++ o :: mid ++ o' :: post) (hs : o.schema.singleton = false) (hs' : o'.schema.singleton = false)
    (hp : o.msg.file.path = o'.msg.file.path) (hpre : ∀ a ∈ pre, a.schema.singleton = false →
      a.msg.file.path ≠ o.msg.file.path) (hne : forgeList o.msg ≠ forgeList o'.msg) :
    Answered env objs (forgeList o'.msg) ∧ ∀ s ∈ d.schemas, s.1 ≠ (forgeList o'.msg).desc.fullName := by
  refine ⟨(answered_cases hn hu).2 (Or.inr ⟨o', by rw [he]; simp, hs', rfl⟩), fun s hsm hn' => ?_⟩
  refine C86_lists_fails hn ho hu hd hf h he hs hs' hp hpre hne ⟨s, hsm, ?_⟩
  rw [schemaRef_typeName, hn', forgeList_topName]

/-! ## C89: the document does not depend on the order of iteration -/

/-- C89, what holds: whatever orders of iteration were chosen, the document is the same, if names and
paths are unique and there is one file with services at most. -/
theorem C89_partial {ord' : MapOrder} (hn : NamesKnown env) (ho : IsOrder ord) (ho' : IsOrder ord')
    {objs : List ApiObject} (hu : NamesUnique env objs) (hd : DeclaredOnce env objs) (hf : FilesOk env objs)
    {fuel fuel' : Nat} {d d' : Document} (h : apiDocument env ord fuel objs = some d)
    (h' : apiDocument env ord' fuel' objs = some d') : d = d' := by
  obtain ⟨g, hg, rfl⟩ := apiDocument_some h
  obtain ⟨g', hg', rfl⟩ := apiDocument_some h'
  exact build_deterministic hn ho ho' hu hd hf hg hg'

/-- C89: so it is for state objects from the files of the application. -/
theorem C89_files {ord' : MapOrder} (ho : IsOrder ord) (ho' : IsOrder ord') {objs : List ApiObject}
    (hf : FromFiles objs) {fuel fuel' : Nat} {d d' : Document} (h : apiDocument docEnv ord fuel objs = some d)
    (h' : apiDocument docEnv ord' fuel' objs = some d') : d = d' :=
  C89_partial docEnv_known ho ho' (fromFiles_names hf) (fromFiles_declared hf) (fromFiles_files hf) h h'

/-- Two files with a service each. -/
def titleEnv : DocEnv := fun n =>
  if n = b!"p.A" then ⟨b!"A", ⟨n, []⟩, .mk b!"a.proto" b!"p" [(b!"A", ⟨b!"p.A", []⟩)] [b!"First"] []⟩
  else if n = b!"p.B" then ⟨b!"B", ⟨n, []⟩, .mk b!"b.proto" b!"p" [(b!"B", ⟨b!"p.B", []⟩)] [b!"Second"] []⟩
  else ⟨b!"M", ⟨n, [⟨b!"a", .message, .single, b!"p.A"⟩, ⟨b!"b", .message, .single, b!"p.B"⟩]⟩,
    .mk b!"m.proto" b!"p" [(b!"M", ⟨n, [⟨b!"a", .message, .single, b!"p.A"⟩, ⟨b!"b", .message, .single, b!"p.B"⟩]⟩)] [] []⟩

/-- The object of the example. -/
def titleObject : ApiObject := ⟨titleEnv b!"p.M", ⟨b!"p", b!"m"⟩, { singleton := true }⟩

/-- **C89 is false** in general: with two files that have services the title of the document depends on
the order of iteration. -/
theorem C89_fails : ∃ (ord ord' : MapOrder) (d d' : Document), IsOrder ord ∧ IsOrder ord' ∧
    apiDocument titleEnv ord 3 [titleObject] = some d ∧ apiDocument titleEnv ord' 3 [titleObject] = some d' ∧
    d.title = b!"Second" ∧ d'.title = b!"First" := by
  refine ⟨fieldOrder, fun _ l => l.reverse, _, _, isOrder_fieldOrder, fun _ l => List.reverse_perm l, rfl, rfl, ?_, ?_⟩ <;>
    decide +kernel

/-! ## C87: the paths of the document are those of the router -/

theorem toLower_append (a b : Bytes) : toLower (a ++ b) = toLower a ++ toLower b := by
  unfold toLower; rw [List.map_append]

theorem apiOps_paths {o : ApiObject} {sch : Schema} (h : sch.api = o.api) :
    (apiOps o).map RawOp.path = (objectRoutes sch o.schema).map fun r => template r.segs := by
  unfold apiOps objectRoutes
  rw [h]
  split
  · simp only [List.map_cons, List.map_nil, singletonPath, template, List.flatMap_cons, List.flatMap_nil,
      List.append_nil]
    unfold toLower
    rw [List.map_cons, List.map_append, List.map_cons]
    rfl
  · simp only [List.map_cons, List.map_nil, instancePath, listPath, template, List.flatMap_cons, List.flatMap_nil,
      List.append_nil]
    unfold toLower
    simp only [List.map_cons, List.map_append, List.map_nil]
    have h47 : lowerByte 47 = 47 := by decide
    have h123 : lowerByte 123 = 123 := by decide
    have h125 : lowerByte 125 = 125 := by decide
    rw [h47, h123, h125]
    simp

/-- C87: the paths of the document are the templates of the routes of the API server, but for that of the
document itself. -/
theorem C87_paths (hn : NamesKnown env) (ho : IsOrder ord) {objs : List ApiObject} {routed : List (Schema × SchemaDef)}
    (hs : SameObjects objs routed) {fuel : Nat} {d : Document} (h : apiDocument env ord fuel objs = some d) (p : Bytes) :
    (∃ op, (p, op) ∈ d.paths) ↔ ∃ r ∈ allRoutes routed, r.kind ≠ .spec ∧ template r.segs = p := by
  obtain ⟨g, hg, rfl⟩ := apiDocument_some h
  obtain ⟨hr, hops⟩ := build_requires hn ho hg
  have hb := (build_paths hr hops).1
  have hsets : (objs.flatMap apiOps).map RawOp.path =
      (routed.flatMap fun e => objectRoutes e.1 e.2).map fun r => template r.segs := by
    clear h hg hr hops hb
    unfold SameObjects at hs
    induction objs generalizing routed with
    | nil => cases routed with
      | nil => rfl
      | cons e es => simp at hs
    | cons o os ih => cases routed with
      | nil => simp at hs
      | cons e es =>
        rw [List.map_cons, List.map_cons] at hs
        obtain ⟨h1, h2⟩ := List.cons.inj hs
        obtain ⟨h3, h4⟩ := Prod.mk.inj h1
        rw [List.flatMap_cons, List.flatMap_cons, List.map_append, List.map_append, ih h2,
          apiOps_paths (sch := e.1) h3.symm, h4]
  have hkind : ∀ r ∈ routed.flatMap (fun e => objectRoutes e.1 e.2), r.kind ≠ .spec := by
    intro r hr
    obtain ⟨e, _, hr⟩ := List.mem_flatMap.1 hr
    unfold objectRoutes at hr
    split at hr
    · rw [List.mem_singleton.1 hr]; simp
    · rcases List.mem_cons.1 hr with rfl | hr
      · simp
      · rw [List.mem_singleton.1 hr]; simp
  constructor
  · rintro ⟨op, hop⟩
    obtain ⟨r, ⟨pre, post, hrm, _⟩, he⟩ := (hb _).1 hop
    have hp : p ∈ (objs.flatMap apiOps).map RawOp.path := List.mem_map.2 ⟨r, by rw [hrm]; simp, (Prod.mk.inj he).1.symm⟩
    rw [hsets] at hp
    obtain ⟨r', hr', he'⟩ := List.mem_map.1 hp
    exact ⟨r', List.mem_append_left _ hr', hkind r' hr', he'⟩
  · rintro ⟨r, hrm, hk, he⟩
    rcases List.mem_append.1 hrm with hrm | hrm
    · have hp : p ∈ (objs.flatMap apiOps).map RawOp.path := by
        rw [hsets]; exact List.mem_map.2 ⟨r, hrm, he⟩
      obtain ⟨raw, hraw, hrp⟩ := List.mem_map.1 hp
      obtain ⟨raw', hlast, hrp'⟩ := exists_lastOf _ raw hraw
      exact ⟨raw'.operation, (hb _).2 ⟨raw', hlast, by rw [hrp', hrp]⟩⟩
    · rw [List.mem_singleton.1 hrm] at hk
      exact absurd rfl hk

/-- C87: under each path the document has the operation that was registered last. -/
theorem C87_last (hn : NamesKnown env) (ho : IsOrder ord) {objs : List ApiObject} {fuel : Nat} {d : Document}
    (h : apiDocument env ord fuel objs = some d) (p : Bytes) (op : Operation) :
    (p, op) ∈ d.paths ↔ ∃ r, LastOf (objs.flatMap apiOps) r ∧ p = r.path ∧ op = r.operation := by
  obtain ⟨g, hg, rfl⟩ := apiDocument_some h
  obtain ⟨hr, hops⟩ := build_requires hn ho hg
  rw [(build_paths hr hops).1]
  simp only [Prod.mk.injEq]

/-- C87, what holds: if no two operations have the same path, the document has all of them. -/
theorem C87_partial (hn : NamesKnown env) (ho : IsOrder ord) {objs : List ApiObject}
    (hp : ((objs.flatMap apiOps).map RawOp.path).Nodup) {fuel : Nat} {d : Document}
    (h : apiDocument env ord fuel objs = some d) (p : Bytes) (op : Operation) :
    (p, op) ∈ d.paths ↔ ∃ r ∈ objs.flatMap apiOps, p = r.path ∧ op = r.operation := by
  rw [C87_last hn ho h]
  constructor
  · rintro ⟨r, ⟨pre, post, hr, _⟩, h'⟩
    exact ⟨r, by rw [hr]; simp, h'⟩
  · rintro ⟨r, hr, h'⟩
    obtain ⟨r', hlast, he⟩ := exists_lastOf _ r hr
    have hr' : r' ∈ objs.flatMap apiOps := by
      obtain ⟨pre, post, hr', _⟩ := hlast
      rw [hr']; simp
    obtain rfl := List.inj_on_of_nodup_map hp hr' hr he
    exact ⟨r', hlast, h'⟩

/-- C87: what the document says about a state object, if no two operations have the same path: the path of
its instances (or of the singleton) answers the message, the path of the list answers the list and has
the parameters that the handler reads. -/
theorem C87_described (hn : NamesKnown env) (ho : IsOrder ord) {objs : List ApiObject}
    (hp : ((objs.flatMap apiOps).map RawOp.path).Nodup) {fuel : Nat} {d : Document}
    (h : apiDocument env ord fuel objs = some d) {o : ApiObject} (hm : o ∈ objs)
    (he : topName o.msg.file o.msg.name ∉ [b!"google.protobuf.Empty", b!"google.api.HttpBody"]) :
    (o.schema.singleton = true → (httpSingletonPath o.api.group o.api.kind,
      ⟨b!"singleton." ++ o.api.name, [], .json (b!"#/components/schemas/" ++ topName o.msg.file o.msg.name)⟩) ∈ d.paths) ∧
    (o.schema.singleton = false →
      (httpPath o.api.group o.api.kind (b!"{" ++ toLower o.schema.primaryKey ++ b!"}"),
        ⟨b!"get." ++ o.api.name, [], .json (b!"#/components/schemas/" ++ topName o.msg.file o.msg.name)⟩) ∈ d.paths ∧
      (httpListPath o.api.group o.api.kind,
        ⟨b!"list." ++ o.api.name, [(b!"selectField", b!"string"), (b!"start", b!"integer"), (b!"end", b!"integer")],
          .json (b!"#/components/schemas/dynamic." ++ topName o.msg.file o.msg.name ++ b!"List")⟩) ∈ d.paths) := by
  have hresp : (responseContent o.msg).1 = .json (b!"#/components/schemas/" ++ topName o.msg.file o.msg.name) := by
    simp only [List.mem_cons, List.not_mem_nil, or_false, not_or] at he
    have e : o.msg.typeName = 46 :: topName o.msg.file o.msg.name := rfl
    unfold responseContent
    rw [e, if_neg (fun hc => he.1 (List.cons.inj hc).2), if_neg (fun hc => he.2 (List.cons.inj hc).2)]
    rfl
  have hlist : (responseContent (forgeList o.msg)).1 =
      .json (b!"#/components/schemas/dynamic." ++ topName o.msg.file o.msg.name ++ b!"List") := by
    have e : (forgeList o.msg).typeName = 46 :: (b!"dynamic." ++ topName o.msg.file o.msg.name ++ b!"List") := by
      simp [forgeList, MsgOf.typeName, topName, DocFile.package]
    unfold responseContent
    rw [e, if_neg (fun hc => absurd (congrArg (fun l => l[1]?) hc) (by simp)),
      if_neg (fun hc => absurd (congrArg (fun l => l[1]?) hc) (by simp))]
    simp [schemaRef]
  have h47 : lowerByte 47 = 47 := by decide
  have h123 : lowerByte 123 = 123 := by decide
  have h125 : lowerByte 125 = 125 := by decide
  have h115 : lowerByte 115 = 115 := by decide
  have hin : ∀ r ∈ apiOps o, (r.path, r.operation) ∈ d.paths := fun r hr =>
    (C87_partial hn ho hp h _ _).2 ⟨r, List.mem_flatMap.2 ⟨o, hm, hr⟩, rfl, rfl⟩
  constructor
  · intro hs
    have := hin ⟨b!"singleton." ++ o.api.name, singletonPath o.api, [], o.msg⟩ (by simp [apiOps, hs])
    simpa [RawOp.operation, hresp, singletonPath, httpSingletonPath, toLower, h47] using this
  · intro hs
    constructor
    · have := hin ⟨b!"get." ++ o.api.name, instancePath o.api o.schema.primaryKey, [], o.msg⟩ (by simp [apiOps, hs])
      simpa [RawOp.operation, hresp, instancePath, httpPath, toLower, h47, h123, h125] using this
    · have := hin ⟨b!"list." ++ o.api.name, listPath o.api, listParameters, forgeList o.msg⟩ (by simp [apiOps, hs])
      simpa [RawOp.operation, hlist, listPath, httpListPath, toLower, h47, h115, listParameters] using this

/-- A message without fields. -/
def plainMsg (name : Bytes) : MsgOf :=
  ⟨name, ⟨b!"p." ++ name, []⟩, .mk (name ++ b!".proto") b!"p" [(name, ⟨b!"p." ++ name, []⟩)] [] []⟩

/-- Messages without fields. -/
def plainEnv : DocEnv := fun n => ⟨n.drop 2, ⟨n, []⟩, .mk (n.drop 2 ++ b!".proto") b!"p" [(n.drop 2, ⟨n, []⟩)] [] []⟩

/-- **C87 is false** in general: the list of one type and the singleton of another have the same path; the
document describes the singleton, the router serves the list. -/
theorem C87_collision_fails : ∃ (objs : List ApiObject) (routed : List (Schema × SchemaDef)) (d : Document) (sch : Schema),
    SameObjects objs routed ∧ apiDocument plainEnv fieldOrder 3 objs = some d ∧
    (b!"/g/things", ⟨b!"singleton.g.Things", [], .json b!"#/components/schemas/p.Things"⟩) ∈ d.paths ∧
    findRoute (allRoutes routed) [b!"g", b!"things"] = some (.list sch, []) ∧ sch.api = ⟨b!"g", b!"Thing"⟩ := by
  refine ⟨[⟨plainMsg b!"Thing", ⟨b!"g", b!"Thing"⟩, { primaryKey := b!"id" }⟩,
      ⟨plainMsg b!"Things", ⟨b!"g", b!"Things"⟩, { singleton := true }⟩],
    [(⟨⟨b!"g", b!"Thing"⟩, some (b!"id", .string), []⟩, { primaryKey := b!"id" }),
      (⟨⟨b!"g", b!"Things"⟩, none, []⟩, { singleton := true })], _, _, rfl, rfl, ?_, rfl, rfl⟩
  decide +kernel

/-- C87, what fails always: no operation declares the variables of its path. -/
theorem C87_variables_fails (hn : NamesKnown env) (ho : IsOrder ord) {objs : List ApiObject} {fuel : Nat} {d : Document}
    (h : apiDocument env ord fuel objs = some d) :
    ∀ e ∈ d.paths, e.2.params = [] ∨ e.2.params = [(b!"selectField", b!"string"), (b!"start", b!"integer"), (b!"end", b!"integer")] := by
  rintro ⟨p, op⟩ he
  obtain ⟨r, ⟨pre, post, hr, _⟩, _, rfl⟩ := (C87_last hn ho h p op).1 he
  have hrm : r ∈ objs.flatMap apiOps := by rw [hr]; simp
  obtain ⟨o, _, hro⟩ := List.mem_flatMap.1 hrm
  unfold apiOps at hro
  split at hro
  · rw [List.mem_singleton.1 hro]; exact Or.inl rfl
  · rcases List.mem_cons.1 hro with rfl | hro
    · exact Or.inl rfl
    · rw [List.mem_singleton.1 hro]; exact Or.inr rfl

/-! ## C88: the types of the schemas are those of the answers -/

/-- C88: for fields that are not messages, the type is that of the answers but for integers of 64 bits,
enums and groups. -/
theorem C88_scalar_iff (env : DocEnv) (f : FieldDesc) (hc : f.card = .single) (hk : f.kind ≠ .message) :
    documentedType (fieldSchema env f).1 = jsonTypeOfField f ↔
      ¬ Wide f.kind ∧ f.kind ≠ .enum ∧ f.kind ≠ .group := by
  unfold fieldSchema jsonTypeOfField
  rw [hc]
  simp only [if_neg hk]
  revert hk
  cases f.kind <;> decide

/-- C88: the same for the elements of lists. -/
theorem C88_items_iff (env : DocEnv) (f : FieldDesc) (hc : f.card = .list) (hk : f.kind ≠ .message) :
    documentedItems (fieldSchema env f).1 = jsonTypeOfItems f ↔
      ¬ Wide f.kind ∧ f.kind ≠ .enum ∧ f.kind ≠ .group := by
  unfold fieldSchema jsonTypeOfItems
  rw [hc]
  simp only [if_neg hk]
  revert hk
  cases f.kind <;> decide

/-- C88: for messages, the type is that of the answers but for durations and field masks, which are
strings, and dates of google/type, which are not. -/
theorem C88_message_iff (env : DocEnv) (f : FieldDesc) (hc : f.card = .single) (hk : f.kind = .message)
    (hn : topName (env f.msg).file (env f.msg).name = f.msg) :
    documentedType (fieldSchema env f).1 = jsonTypeOfField f ↔
      f.msg ∉ [b!"google.protobuf.Duration", b!"google.protobuf.FieldMask", b!"google.type.Date", b!"google.type.DateTime"] := by
  have ht : (env f.msg).typeName = 46 :: f.msg := congrArg (46 :: ·) hn
  have hs : fieldSchema env f = messageSchema (46 :: f.msg) := by
    unfold fieldSchema
    rw [hc]
    simp only [if_pos hk, ht]
  have hj : jsonTypeOfField f = jsonTypeOfMessage f.msg := by
    unfold jsonTypeOfField; rw [hc]; simp only [if_pos hk]
  rw [hs, hj]
  generalize f.msg = n
  by_cases h1 : n = b!"google.protobuf.Timestamp"
  · subst h1; decide +kernel
  by_cases h2 : n = b!"google.type.Date"
  · subst h2; decide +kernel
  by_cases h3 : n = b!"google.type.DateTime"
  · subst h3; decide +kernel
  have hm : messageSchema (46 :: n) = (.ref (schemaRef (46 :: n)), some (46 :: n)) := by
    unfold messageSchema
    rw [if_neg (fun h => h1 (List.cons.inj h).2), if_neg (fun h => h2 (List.cons.inj h).2),
      if_neg (fun h => h3 (List.cons.inj h).2)]
  rw [hm]
  unfold jsonTypeOfMessage
  simp only [documentedType, h1, false_or, List.mem_cons, h2, h3, List.not_mem_nil, or_false]
  by_cases h4 : n = b!"google.protobuf.Duration" ∨ n = b!"google.protobuf.FieldMask"
  · rw [if_pos h4]
    exact ⟨fun h => absurd h (by decide), fun h => absurd h4 h⟩
  · rw [if_neg h4]
    exact ⟨fun _ => h4, fun _ => rfl⟩

/-- C88: of the maps, those from strings to strings are documented as objects of any content; all others by
a reference to the message of their entries (as if it were declared at the top level of the file), whose
properties are `key` and `value` and not the keys of the map. -/
theorem C88_map (env : DocEnv) (f : FieldDesc) {k v : Kind} {m : Bytes} (hc : f.card = .map k v m) :
    ((fieldSchema env f).1 = .plain b!"object" [] ↔ k = .string ∧ v = .string) ∧
    (¬ (k = .string ∧ v = .string) → f.kind = .message →
      b!"google." ≠ (topName (env f.msg).file (env f.msg).name).take 7 →
      fieldSchema env f = (.ref (b!"#/components/schemas/" ++ topName (env f.msg).file (env f.msg).name),
        some (46 :: topName (env f.msg).file (env f.msg).name))) := by
  have hms : ∀ t, (messageSchema t).1 ≠ .plain b!"object" [] := by
    intro t
    unfold messageSchema
    split
    · intro h; injection h with h _; revert h; decide
    split
    · intro h; injection h with h _; revert h; decide
    split
    · intro h; injection h with h _; revert h; decide
    · exact nofun
  unfold fieldSchema
  rw [hc]
  dsimp only
  refine ⟨?_, ?_⟩
  · by_cases hs : k = .string ∧ v = .string
    · rw [if_pos hs]; exact ⟨fun _ => hs, fun _ => rfl⟩
    · rw [if_neg hs]
      refine ⟨fun h => ?_, fun h => absurd h hs⟩
      by_cases hk : f.kind = .message
      · rw [if_pos hk] at h; exact absurd h (hms _)
      · rw [if_neg hk] at h
        exfalso
        revert h
        cases f.kind <;> decide
  · intro hs hk hg
    have ht : (env f.msg).typeName = 46 :: topName (env f.msg).file (env f.msg).name := rfl
    rw [if_neg hs, if_pos hk, ht]
    unfold messageSchema
    rw [if_neg, if_neg, if_neg]
    · simp [schemaRef]
    all_goals
      intro h
      have h' := (List.cons.inj h).2
      rw [h'] at hg
      exact hg (by decide)

end Verif.Props
