import Verif.Model.TestModule
import Verif.Spec.MapStore
import Verif.Proofs.TestApp
import Verif.Proofs.Sample
/-!
# The module of testdata/testmodule: C104

The application is the module with `x/crisis`, which has a name only; its store is the map that the
ORM store is proved to be (C08).
-/

namespace Verif.Props
open Verif Spec TestModule

/-- The schemas under which the two types are registered. -/
def postTypes : Registry :=
  [⟨(Object.post [] [] [] []).api, some (b!"id", .string), [⟨b!"creator", .string⟩]⟩,
   ⟨(Object.params 0).api, none, []⟩]

/-- What is built of the two modules. -/
def postBuilt : Built Object CreatePost Unit where
  reg := postTypes
  router := {
    exec := [(b!"testmodule.v1.MsgCreatePost", ⟨b!"test", createPostExec⟩)]
    admission := [(b!"testmodule.v1.MsgCreatePost", ⟨b!"test", createPostAdmission⟩)] }
  services := []
  authorizer := alwaysAllow

/-- The application can be built, and this is the result. -/
theorem C104_built (env : DescEnv) (n : Nat) : build env (n + 1) [desc, crisisDesc] = some (.ok postBuilt) := by
  have : registerObjects env (n + 1) ([desc, crisisDesc].flatMap (·.objects)) [] = some (.ok postTypes) := by
    rw [registerObjects_flat (by decide)]
    rfl
  unfold build
  rw [this]
  rfl

/-- The system: everything is allowed, whether authorization is enabled or not. -/
noncomputable def postSys (enabled : Bool) : Sys (Contents Object) Object :=
  ⟨mapOps postTypes, postBuilt.authorizer, enabled⟩

/-- Delivery of a message. -/
noncomputable def createPost (enabled : Bool) (fuel : Nat) (skip : Bool) (users : Users) (msg : CreatePost)
    (m : Contents Object) : Res (Contents Object) (Except Err Unit) :=
  deliver (postSys enabled) postBuilt.router fuel skip users msg m

/-- Where posts and parameters are stored. -/
def postType : Bytes := b!"testmodule.v1.Post"
def paramsType : Bytes := b!"testmodule.v1.Params"

theorem postSys_allows (enabled : Bool) (m : Contents Object) (v : Verb) (r : Bytes) (u : Users) :
    (postSys enabled).authorized m v r u = .ret (.ok ()) := by
  cases enabled <;> rfl

/-- **C104 (partial)** The default genesis stores the number 1. -/
theorem C104_genesis_partial (enabled : Bool) (d : Users → CreatePost → Contents Object → Res (Contents Object) (Except Err Unit))
    (me : Users) : genesisDefault.run (postSys enabled) d me Contents.empty =
      .done (.ok ()) (Contents.empty.put paramsType b!"unique" (some (.params 1))) := by
  cases enabled <;> rfl

/-- **C104 (partial)** A message is admitted exactly if its creator is a user of the request and title and
text are given; otherwise nothing happens. -/
theorem C104_admission_partial (enabled : Bool) (n : Nat) (users : Users) (msg : CreatePost) (m : Contents Object) :
    createPost enabled (n + 1) false users msg m =
      if msg.creator ∈ users ∧ msg.title ≠ [] ∧ msg.text ≠ [] then createPost enabled (n + 1) true users msg m
      else .done (.error .badRequest) m := by
  have hrun : ∀ d me, (createPostAdmission users msg).run (postSys enabled) d me m =
      .done (if msg.creator ∈ users ∧ msg.title ≠ [] ∧ msg.text ≠ [] then .ok () else .error .other) m := by
    intro d me
    unfold createPostAdmission
    by_cases h1 : msg.creator ∈ users <;> by_cases h2 : msg.title = [] <;> by_cases h3 : msg.text = [] <;>
      simp [Users.has, Users.has1, h1, h2, h3, Prog.run]
  have hget : postBuilt.router.getAdmission (tname msg) = .ok [⟨b!"test", createPostAdmission⟩] := rfl
  simp only [createPost, deliver, admissionChain, hget, runAll, hrun, Bool.false_eq_true, if_false, if_true]
  by_cases hc : msg.creator ∈ users ∧ msg.title ≠ [] ∧ msg.text ≠ []
  · simp only [if_pos hc]
  · simp only [if_neg hc]

/-- Execution: the post with the stored number is created. -/
theorem createPost_exec (enabled : Bool) (n : Nat) (users : Users) (msg : CreatePost) (m : Contents Object)
    (hp : m paramsType b!"unique" = some (.params 1)) :
    createPost enabled (n + 1) true users msg m =
      match (postSys enabled).create [b!"test"] (.post b!"1" msg.creator msg.title msg.text) m with
      | .panic => .panic
      | .ret (r, m) => .done r m := by
  have hget : (postSys enabled).get m (Object.params 0).api.name singletonID = .ret (.ok (.params 1)) := by
    have h1 : postTypes.get (Object.params 0).api.name = some ⟨(Object.params 0).api, none, []⟩ := by rfl
    have h2 : m (Object.params 0).api.name singletonID = some (.params 1) := hp
    have h3 : singletonID ≠ [] := by decide
    simp only [Sys.get, postSys, mapOps, mapGet, h1, h2, if_neg h3, convertStoreError]
  have hex : postBuilt.router.getExec (tname msg) = .ok ⟨b!"test", createPostExec⟩ := rfl
  have hpre : postBuilt.router.getPre (tname msg) = .ok [] := rfl
  have hpost : postBuilt.router.getPost (tname msg) = .ok [] := rfl
  have hnum : printed 1 = b!"1" := by decide
  have hme : Users.ofNames [b!"test"] = [b!"test"] := rfl
  simp only [createPost, deliver, if_true, deliverAdmitted, postSys_allows, hpre, runAll, hex, hpost,
    createPostExec, Prog.run, hget, hnum, hme]
  cases (postSys enabled).create [b!"test"] (.post b!"1" msg.creator msg.title msg.text) m with
  | panic => rfl
  | ret x =>
    obtain ⟨r, m'⟩ := x
    cases r <;> rfl

theorem post_reg (msg : CreatePost) :
    postTypes.get (StateObject.api (Object.post b!"1" msg.creator msg.title msg.text)).name =
      some ⟨(Object.post [] [] [] []).api, some (b!"id", .string), [⟨b!"creator", .string⟩]⟩ := by rfl

theorem post_key (msg : CreatePost) :
    (⟨(Object.post [] [] [] []).api, some (b!"id", .string), [⟨b!"creator", .string⟩]⟩ : Schema).encodePrimaryKey
      (Object.post b!"1" msg.creator msg.title msg.text) = .ret b!"1" := by rfl

/-- **C104 (partial)** The first message creates post number 1. -/
theorem C104_first_partial (enabled : Bool) (n : Nat) (users : Users) (msg : CreatePost) (m : Contents Object)
    (hp : m paramsType b!"unique" = some (.params 1)) (hfree : m postType b!"1" = none)
    (hv : validUtf8 msg.creator = true ∧ validUtf8 msg.title = true ∧ validUtf8 msg.text = true)
    (hlen : msg.creator.length < 2 ^ 60) :
    createPost enabled (n + 1) true users msg m =
      .done (.ok ()) (m.put postType b!"1" (some (.post b!"1" msg.creator msg.title msg.text))) := by
  rw [createPost_exec enabled n users msg m hp]
  have hone : validUtf8 b!"1" = true := by decide
  have hi : (⟨b!"creator", .string⟩ : Indexer).encodeFromObject (Object.post b!"1" msg.creator msg.title msg.text) =
      .ret ((appendBytes msg.creator).drop 1) := by rfl
  have hl : 25 + ((Object.post [] [] [] []).api.name).length + 7 + ((appendBytes msg.creator).drop 1).length + 1 < maxLen := by
    have hv : ((appendBytes msg.creator).drop 1).length ≤ 2 * msg.creator.length + 1 := by
      rw [List.length_drop, appendBytes, List.length_append]
      have := appendVarint_length_le msg.creator.length; omega
    have : ((Object.post [] [] [] []).api.name).length = 18 := by decide
    rw [maxLen_eq, this]
    omega
  have hs : storable postTypes (Object.post b!"1" msg.creator msg.title msg.text) = true := by
    have : StateObject.marshalPanics (Object.post b!"1" msg.creator msg.title msg.text) = false := by
      simp [StateObject.marshalPanics, hv, hone]
    simp only [storable, this, post_reg, post_key, indexable, List.all_cons, List.all_nil, hi]
    simpa [Schema.name] using hl
  have hfree' : m (StateObject.api (Object.post b!"1" msg.creator msg.title msg.text)).name b!"1" = none := hfree
  have : mapExec postTypes m (.create (.post b!"1" msg.creator msg.title msg.text)) =
      .ret (.ok (), m.put postType b!"1" (some (.post b!"1" msg.creator msg.title msg.text))) := by
    simp [mapExec, Op.obj, post_reg, post_key, apply, hfree', hs]
    rfl
  simp only [Sys.create, Sys.write, postSys_allows]
  simp only [postSys, mapOps, this, convertStoreError]

/-- **C104 is false**: with a post of number 1 there, which is so after the first message, every message that
is executed crashes the process: the number is never increased, and an object that exists can not be
created. -/
theorem C104_second_fails (enabled : Bool) (n : Nat) (users : Users) (msg : CreatePost) (m : Contents Object)
    (hp : m paramsType b!"unique" = some (.params 1)) (hused : (m postType b!"1").isSome) :
    createPost enabled (n + 1) true users msg m = .panic := by
  rw [createPost_exec enabled n users msg m hp]
  have hused' : (m (StateObject.api (Object.post b!"1" msg.creator msg.title msg.text)).name b!"1").isSome := hused
  have : mapExec postTypes m (.create (.post b!"1" msg.creator msg.title msg.text)) = .ret (.error .alreadyExists, m) := by
    simp [mapExec, Op.obj, post_reg, post_key, apply, hused']
  simp only [Sys.create, Sys.write, postSys_allows]
  simp only [postSys, mapOps, this, convertStoreError]

/-- Two messages after the default genesis, on the ORM store: the first creates a post, the second crashes. -/
example : ∃ s₀ s₁ : Store Object,
    genesisDefault.run ⟨ormOps Object, postBuilt.authorizer, false⟩ (fun _ _ s => .done (.ok ()) s) [b!"test"]
      (fresh postTypes) = .done (.ok ()) s₀ ∧
    deliver ⟨ormOps Object, postBuilt.authorizer, true⟩ postBuilt.router 1 false [b!"ann"] ⟨b!"ann", b!"hello", b!"world"⟩ s₀
      = .done (.ok ()) s₁ ∧
    s₁.get postType b!"1" = .ok (.post b!"1" b!"ann" b!"hello" b!"world") ∧
    deliver ⟨ormOps Object, postBuilt.authorizer, true⟩ postBuilt.router 1 false [b!"bob"] ⟨b!"bob", b!"a", b!"b"⟩ s₁ = .panic :=
  ⟨_, _, (by rfl), (by rfl), (by rfl), (by rfl)⟩

end Verif.Props
