import Verif.Proofs.Protos
import Verif.Proofs.OpenApiOrder
/-!
# The files of the application meet the conditions
-/

namespace Verif

open Spec

theorem docEnv_of_mem {m : MsgOf} (h : m ∈ docMessages) : docEnv m.desc.fullName = m := by
  have key : ∀ (l : List MsgOf), (l.map fun m => m.desc.fullName).Nodup → m ∈ l →
      l.find? (fun x => x.desc.fullName = m.desc.fullName) = some m := by
    intro l
    induction l with
    | nil => intro _ h; cases h
    | cons a l ih =>
      intro hn hm
      rw [List.map_cons, List.nodup_cons] at hn
      rcases List.mem_cons.1 hm with rfl | hm
      · rw [List.find?_cons_of_pos (by simp)]
      · rw [List.find?_cons_of_neg, ih hn.2 hm]
        intro he
        exact hn.1 (List.mem_map.2 ⟨m, hm, (of_decide_eq_true he).symm⟩)
  unfold docEnv
  rw [key _ docMessages_names h]
  rfl

theorem docMessages_inj {m m' : MsgOf} (h : m ∈ docMessages) (h' : m' ∈ docMessages)
    (he : m.desc.fullName = m'.desc.fullName) : m = m' :=
  List.inj_on_of_nodup_map docMessages_names h h' he

theorem docEnv_nested {m : MsgOf} (h : m ∈ docMessages) {n : Bytes} (hn : n ∈ m.desc.nested) :
    docEnv n ∈ docMessages := by
  have := docMessages_nested m h n hn
  obtain ⟨x, hx⟩ := Option.isSome_iff_exists.1 this
  unfold docEnv
  rw [hx]
  exact List.mem_of_find?_eq_some hx

theorem docMessages_reaches {m x : MsgOf} (h : m ∈ docMessages) (hr : Reaches docEnv m x) : x ∈ docMessages := by
  induction hr with
  | refl => exact h
  | tail _ hm ih =>
    obtain ⟨n, hn, rfl⟩ := mentions_iff.1 hm
    exact docEnv_nested ih hn

variable {objs : List ApiObject}

theorem fromFiles_answered (hf : FromFiles objs) {x : MsgOf} (hx : Answered docEnv objs x) :
    x ∈ docMessages ∨ ∃ o ∈ objs, x = forgeList o.msg := by
  obtain ⟨o, ho, r, hr, h⟩ := hx
  have hforge : Reaches docEnv (forgeList o.msg) x → x ∈ docMessages ∨ ∃ o ∈ objs, x = forgeList o.msg := by
    intro h
    rcases Relation.ReflTransGen.cases_head h with rfl | ⟨y, ⟨f, hf', _, rfl⟩, hy⟩
    · exact Or.inr ⟨o, ho, rfl⟩
    · left
      obtain rfl : f = ⟨b!"list", .message, .list, o.msg.desc.fullName⟩ := List.mem_singleton.1 hf'
      have := docEnv_of_mem (hf o ho).1
      rw [this] at hy
      exact docMessages_reaches (hf o ho).1 hy
  unfold answers at hr
  split at hr
  · rw [List.mem_singleton.1 hr] at h
    exact Or.inl (docMessages_reaches (hf o ho).1 h)
  · rcases List.mem_cons.1 hr with rfl | hr
    · exact Or.inl (docMessages_reaches (hf o ho).1 h)
    · rw [List.mem_singleton.1 hr] at h
      exact hforge h

theorem forgeList_fullName (m : MsgOf) : (forgeList m).desc.fullName = b!"dynamic." ++ (topName m.file m.name ++ b!"List") := by
  show (b!"dynamic." ++ m.file.package) ++ 46 :: (m.name ++ b!"List") = _
  unfold topName
  simp

theorem forgeList_topName (m : MsgOf) : topName (forgeList m).file (forgeList m).name = (forgeList m).desc.fullName := rfl

theorem forgeList_inj (hf : FromFiles objs) {o o' : ApiObject} (ho : o ∈ objs) (ho' : o' ∈ objs)
    (he : (forgeList o.msg).desc.fullName = (forgeList o'.msg).desc.fullName) : o.msg = o'.msg := by
  rw [forgeList_fullName, forgeList_fullName] at he
  have := List.append_cancel_right (List.append_cancel_left he)
  rw [← (hf o ho).2, ← (hf o' ho').2] at this
  exact docMessages_inj (hf o ho).1 (hf o' ho').1 this

theorem forgeList_dynamic (m : MsgOf) : b!"dynamic." <+: (forgeList m).desc.fullName := by
  rw [forgeList_fullName]; exact List.prefix_append _ _

theorem fromFiles_names (hf : FromFiles objs) : NamesUnique docEnv objs := by
  intro x y hx hy he
  rcases fromFiles_answered hf hx with hx | ⟨o, ho, rfl⟩
  · rcases fromFiles_answered hf hy with hy | ⟨o', _, rfl⟩
    · exact docMessages_inj hx hy he
    · exact absurd (he ▸ forgeList_dynamic o'.msg) (docMessages_compiled x hx).1
  · rcases fromFiles_answered hf hy with hy | ⟨o', ho', rfl⟩
    · exact absurd (he ▸ forgeList_dynamic o.msg) (docMessages_compiled y hy).1
    · rw [forgeList_inj hf ho ho' he]

theorem docFiles_within {f h : DocFile} (hf : f ∈ docFiles) (hw : Within f h) : h ∈ docFiles := by
  induction hw with
  | refl => exact hf
  | step hi _ ih => exact ih (docFiles_closed _ hf _ hi)

theorem fromFiles_compiled (hf : FromFiles objs) {h : DocFile} (hc : Compiled docEnv objs h) : h ∈ docFiles := by
  obtain ⟨o, ho, x, hx, hw⟩ := hc
  exact docFiles_within (docMessages_files x (docMessages_reaches (hf o ho).1 hx)) hw

theorem fromFiles_needed (hf : FromFiles objs) {h : DocFile} (hc : Needed docEnv objs h) :
    h ∈ docFiles ∨ ∃ o ∈ objs, h = (forgeList o.msg).file := by
  obtain ⟨x, hx, hw⟩ := hc
  rcases fromFiles_answered hf hx with hx | ⟨o, ho, rfl⟩
  · exact Or.inl (docFiles_within (docMessages_files x hx) hw)
  · cases hw with
    | refl => exact Or.inr ⟨o, ho, rfl⟩
    | step hi hw =>
      rw [forgeList_imports, List.mem_singleton] at hi
      rw [hi] at hw
      exact Or.inl (docFiles_within (docMessages_files _ (hf o ho).1) hw)

theorem fromFiles_files (hf : FromFiles objs) : FilesOk docEnv objs where
  unique g h hg hh he := List.inj_on_of_nodup_map docFiles_paths (fromFiles_compiled hf hg) (fromFiles_compiled hf hh) he
  compiled h hh := docFiles_compiled h (fromFiles_compiled hf hh)
  declares h hh m hm hp := by
    obtain ⟨h1, y, hy, h2⟩ := docFiles_messages h (fromFiles_compiled hf hh) m hm
    exact (docMessages_compiled y hy).1 (by rw [h2, h1]; exact hp)
  service g h hg hh hsg hsh := by
    have hg := fromFiles_compiled hf hg
    have hh := fromFiles_compiled hf hh
    exact List.inj_on_of_nodup_map docFiles_paths hg hh
      ((docFiles_services g hg hsg).trans (docFiles_services h hh hsh).symm)

theorem fromFiles_declared (hf : FromFiles objs) : DeclaredOnce docEnv objs := by
  intro x hx h hh m hm he
  rcases fromFiles_needed hf hh with hh | ⟨o, ho, rfl⟩
  · obtain ⟨h1, y, hy, h2⟩ := docFiles_messages h hh m hm
    rcases fromFiles_answered hf hx with hx | ⟨o', _, rfl⟩
    · rcases docMessages_top x hx with h3 | h3
      · rw [← h2]
        exact congrArg _ (docMessages_inj hy hx (by rw [h2, h1, he, h3]))
      · exact absurd (by rw [h2, h1, he]) (h3 y hy)
    · refine absurd ?_ (docMessages_compiled y hy).1
      rw [h2, h1, he, forgeList_topName]
      exact forgeList_dynamic _
  · rw [forgeList_messages, List.mem_singleton] at hm
    subst hm
    rw [forgeList_topName] at he
    rcases fromFiles_answered hf hx with hx | ⟨o', ho', rfl⟩
    · exact absurd (he ▸ forgeList_dynamic o.msg) (docMessages_compiled x hx).2
    · rw [forgeList_topName] at he
      rw [forgeList_inj hf ho ho' he]

end Verif
