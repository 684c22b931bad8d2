import Verif.Proofs.ORMOps
import Verif.Spec.History
import Verif.Spec.Text
/-! Listing under the index invariant, and histories. -/

namespace Verif
open Spec (view Op)
variable {O : Type} [StateObject O]

theorem inj_of_nodup_map {α β : Type} {f : α → β} {l : List α} (h : (l.map f).Nodup) {x y : α}
    (hx : x ∈ l) (hy : y ∈ l) (e : f x = f y) : x = y := by
  induction l with
  | nil => cases hx
  | cons a l ih =>
    simp only [List.map_cons, List.nodup_cons, List.mem_map, not_exists, not_and] at h
    rcases List.mem_cons.1 hx with rfl | hx1 <;> rcases List.mem_cons.1 hy with rfl | hy1
    · rfl
    · exact absurd e.symm (h.1 _ hy1)
    · exact absurd e (h.1 _ hx1)
    · exact ih h.2 hx1 hy1

theorem Inv.scan {s : Store O} (hi : Inv s) {ty : Bytes} {sch : Schema} (hreg : s.reg.get ty = some sch)
    {i : Indexer} (hmem : i ∈ sch.indexes) {b : Bytes}
    (hlen : (IndexKey.marshal ⟨ty, i.name, b, []⟩).length < maxLen) :
    (((s.index.iteratePrefix (IndexKey.marshal ⟨ty, i.name, b, []⟩)).map (·.1)).Pairwise
        fun a b => Bytes.lt a b = true) ∧
    ∀ pk, pk ∈ (s.index.iteratePrefix (IndexKey.marshal ⟨ty, i.name, b, []⟩)).map (·.1) ↔
      ∃ o, view s ty pk = some o ∧ i.encodeFromObject o = .ret b := by
  refine ⟨KV.iteratePrefix_increasing hi.sorted _, fun pk => ?_⟩
  have hn := (Registry.get_mem hreg).2
  have hq := indexKey_small_of_length hlen
  have : pk ∈ (s.index.iteratePrefix (IndexKey.marshal ⟨ty, i.name, b, []⟩)).map (·.1) ↔
      s.index.has (IndexKey.marshal ⟨ty, i.name, b, []⟩ ++ pk) = true := by
    simp only [List.mem_map, Prod.exists, exists_and_right, exists_eq_right,
      KV.mem_iteratePrefix hi.sorted, KV.has, Option.isSome_iff_exists]
  rw [this]
  have hhead : IndexKey.marshal ⟨ty, i.name, b, []⟩ ++ pk =
      0 :: ((IndexKey.marshal ⟨ty, i.name, b, []⟩).tail ++ pk) := rfl
  rw [hhead, hi.idx, ← hhead]
  constructor
  · rintro ⟨sch', pk', o, hl, hk⟩
    have hph := hi.live_phys hl
    have hkl := hph.2.2 _ hk
    obtain ⟨j, hj, e⟩ := mem_ikeysOf.1 hk
    have := (IndexKey.marshal_prefix (q := ⟨ty, i.name, b, []⟩) hq
      (indexKey_small_of_length (by rw [e]; exact hkl)) rfl).1 e
    obtain ⟨e1, e2, e3, e4⟩ := this
    simp only at e1 e2 e3 e4
    subst e4
    have hsch : sch' = sch := by
      have h1 := Registry.get_of_mem hi.reg.names (Registry.get_mem hl.reg).1
      rw [e1, hreg] at h1; injection h1 with h1; exact h1.symm
    subst hsch
    have hji : j = i := by
      have hnd := (hi.schemaOk hreg).nodup
      exact inj_of_nodup_map hnd hj hmem e2
    subst hji
    refine ⟨o, ?_, ?_⟩
    · rw [view_eq hreg, if_neg hph.1, ← e1]; exact hl.get
    · rw [hph.2.1 _ hj, e3]
  · rintro ⟨o, hv, henc⟩
    rw [view_eq hreg] at hv
    split at hv
    · cases hv
    · rw [← hn] at hv
      obtain ⟨hl, h1, h2, h3, h4⟩ := hi.live_of_get hreg hv
      refine ⟨sch, pk, o, hl, mem_ikeysOf.2 ⟨i, hmem, ?_⟩⟩
      have : idxVal i o = b := by simp [idxVal, henc]
      rw [this, IndexKey.marshal_eq, IndexKey.marshal_eq, hn]
      simp

theorem exec_spec {s : Store O} (hi : Inv s) {op : Op O} :
    ∀ r s', Spec.exec s op = .ret (r, s') → Inv s' ∧ s'.reg = s.reg ∧
      (r, view s') = Spec.step s.reg (view s) op ∧ (r ≠ .ok () → s' = s) := by
  intro r s' h
  cases op with
  | create o => exact hi.create_spec h
  | update o => exact hi.update_spec h
  | delete o => exact hi.delete_spec h

/-- Histories on the store refine histories on the map. -/
theorem runStore_refines {reg : Registry} : ∀ (ops : List (Op O)) (s : Store O) (rs : List (Except OrmErr Unit))
    (s' : Store O), Inv s → s.reg = reg →
    Spec.runStore s ops = .ret (rs, s') →
    Inv s' ∧ s'.reg = reg ∧ Spec.run reg (view s) ops = (rs, view s') := by
  intro ops
  induction ops with
  | nil =>
    intro s rs s' hi hr h
    simp only [Spec.runStore, Out.ret.injEq, Prod.mk.injEq] at h
    obtain ⟨rfl, rfl⟩ := h
    exact ⟨hi, hr, rfl⟩
  | cons op ops ih =>
    intro s rs s' hi hr h
    simp only [Spec.runStore] at h
    have key := exec_spec hi (op := op)
    generalize Spec.exec s op = q at key h
    cases q with
    | panic => cases h
    | ret q =>
      obtain ⟨r, s1⟩ := q
      simp only at h
      obtain ⟨h1, h2, h3, _⟩ := key r s1 rfl
      cases hq2 : Spec.runStore s1 ops with
      | panic => simp [hq2] at h
      | ret q2 =>
        obtain ⟨rs', s2⟩ := q2
        simp only [hq2, Out.ret.injEq, Prod.mk.injEq] at h
        obtain ⟨rfl, rfl⟩ := h
        obtain ⟨g1, g2, g3⟩ := ih s1 rs' s2 h1 (h2.trans hr) hq2
        refine ⟨g1, g2, ?_⟩
        simp only [Spec.run]
        rw [hr] at h3
        rw [← h3]
        simp [g3]

omit [StateObject O] in
theorem view_init (reg : Registry) : view (Spec.fresh reg : Store O) = Spec.Contents.empty := by
  funext ty pk
  unfold view Store.get
  cases h : (Spec.fresh reg : Store O).reg.get ty with
  | none => rfl
  | some sch =>
    simp only [objGet, saveKeyRaw]
    split <;> rename_i h2
    · split at h2
      · rename_i h3; split at h3 <;> cases h3
        · cases h2
      · simp only [Spec.fresh, KV.empty, KV.get] at h2; cases h2
    · rfl

theorem Inv.init {reg : Registry} (h : RegOk reg) : Inv (Spec.fresh reg : Store O) := Inv.new_reg h

theorem Reached.inv {reg : Registry} {ops : List (Op O)} {rs : List (Except OrmErr Unit)} {s : Store O}
    (h : Spec.Reached reg ops rs s) :
    Inv s ∧ s.reg = reg ∧ Spec.run reg Spec.Contents.empty ops = (rs, view s) := by
  have := runStore_refines ops _ rs s (Inv.init h.regOk) rfl h.run
  rw [view_init] at this
  exact this

end Verif

