import Verif.Proofs.ORM
import Verif.Spec.Objects
/-! Create, Update and Delete preserve the invariant and refine the map specification. -/

namespace Verif
open Spec (view apply keyOf)
variable {O : Type} [StateObject O]

omit [StateObject O] in
theorem view_eq {s : Store O} {ty : Bytes} {sch : Schema} (h : s.reg.get ty = some sch) (pk : Bytes) :
    view s ty pk = if pk = [] then none else s.objects.get (ty ++ 47 :: pk) := by
  have hn := (Registry.get_mem h).2
  subst hn
  unfold view Store.get
  simp only [h, objGet, saveKeyRaw]
  cases pk with
  | nil => simp
  | cons x xs =>
    simp only [List.length_cons, Nat.add_eq_zero_iff, Nat.succ_ne_self, and_false, if_false,
      reduceCtorEq]
    cases s.objects.get (sch.name ++ 47 :: x :: xs) <;> rfl

omit [StateObject O] in
theorem view_none {s : Store O} {ty : Bytes} (h : s.reg.get ty = none) (pk : Bytes) :
    view s ty pk = none := by simp [view, Store.get, h]

omit [StateObject O] in
/-- The view after changing one entry of the object database. -/
theorem view_put {s s' : Store O} (hi : RegOk s.reg) (hr : s'.reg = s.reg) {ty pk : Bytes} {sch : Schema}
    (h : s.reg.get ty = some sch) (hne : pk ≠ []) (v : Option O)
    (hv : ∀ k, s'.objects.get k = if k = ty ++ 47 :: pk then v else s.objects.get k) :
    view s' = (view s).put ty pk v := by
  funext t k
  unfold Spec.Contents.put
  cases ht : s.reg.get t with
  | none =>
    rw [view_none (by rw [hr]; exact ht), view_none ht, if_neg]
    rintro ⟨rfl, rfl⟩; rw [h] at ht; cases ht
  | some sch' =>
    rw [view_eq (by rw [hr]; exact ht), view_eq ht, hv]
    have hn := Registry.get_mem h
    have hn' := Registry.get_mem ht
    by_cases he : t = ty ∧ k = pk
    · obtain ⟨rfl, rfl⟩ := he
      simp [hne]
    · rw [if_neg he]
      split
      · rfl
      · rw [if_neg]
        intro e
        have := hi.ok _ hn.1; have h2 := hi.ok _ hn'.1
        exact he (sep_inj (by rw [← hn'.2]; exact h2.noSlash) (by rw [← hn.2]; exact this.noSlash) e)

section
variable {s : Store O} (hi : Inv s)
include hi

theorem Inv.create_spec {o : O} {r : Except OrmErr Unit} {s' : Store O}
    (h : s.create o = .ret (r, s')) :
    Inv s' ∧ s'.reg = s.reg ∧ (r, view s') = Spec.step s.reg (view s) (.create o) ∧
      (r ≠ .ok () → s' = s) := by
  unfold Spec.step keyOf
  simp only [Spec.Op.obj]
  unfold Store.create at h
  cases hreg : s.reg.get (oname o) with
  | none =>
    simp only [hreg, Out.ret.injEq, Prod.mk.injEq] at h ⊢
    obtain ⟨rfl, rfl⟩ := h
    exact ⟨hi, rfl, ⟨rfl, rfl⟩, fun _ => rfl⟩
  | some sch =>
    have hn := (Registry.get_mem hreg).2
    simp only [hreg, objCreate, saveKey] at h ⊢
    cases hpk : sch.encodePrimaryKey o with
    | panic => simp [hpk] at h
    | ret pk =>
      simp only [hpk, saveKeyRaw] at h
      simp only [apply]
      by_cases hz : pk = []
      · subst hz
        simp only [List.length_nil, if_true, Out.ret.injEq, Prod.mk.injEq] at h ⊢
        obtain ⟨rfl, rfl⟩ := h
        exact ⟨hi, rfl, ⟨rfl, rfl⟩, fun _ => rfl⟩
      · have hz' : pk.length ≠ 0 := by simpa using hz
        simp only [if_neg hz, if_neg hz'] at h ⊢
        rw [view_eq hreg, if_neg hz, ← hn]
        by_cases hh : s.objects.has (sch.name ++ 47 :: pk) = true
        · rw [if_pos hh] at h
          simp only [KV.has] at hh
          simp only [hh, if_true, Out.ret.injEq, Prod.mk.injEq] at h ⊢
          obtain ⟨rfl, rfl⟩ := h
          exact ⟨hi, rfl, ⟨rfl, rfl⟩, fun _ => rfl⟩
        · rw [if_neg hh] at h
          simp only [KV.has] at hh
          have hnone : s.objects.get (sch.name ++ 47 :: pk) = none := by simpa using hh
          simp only [hh, Bool.false_eq_true, if_false]
          by_cases hmp : StateObject.marshalPanics o = true
          · simp [hmp] at h
          · simp only [hmp, Bool.false_eq_true, if_false] at h
            cases hix : indexObject s.index sch o with
            | panic => simp [hix] at h
            | ret q =>
              obtain ⟨r', idx'⟩ := q
              simp only [hix, Out.ret.injEq, Prod.mk.injEq] at h
              obtain ⟨rfl, rfl⟩ := h
              have hother : ∀ sch' pk' o', Live s sch' pk' o' → ¬ (sch'.name = sch.name ∧ pk' = pk) := by
                rintro sch' pk' o' hl ⟨e1, e2⟩
                have := hl.get
                rw [e1, e2, hnone] at this; cases this
              obtain ⟨h1, h2⟩ := hi.after_write hreg hpk hz
                (by
                  intro t
                  rw [hi.idx t]
                  constructor
                  · rintro ⟨sch', pk', o', hl, hk⟩
                    exact ⟨sch', pk', o', hl, hk, hother _ _ _ hl⟩
                  · rintro ⟨sch', pk', o', hl, hk, _⟩
                    exact ⟨sch', pk', o', hl, hk⟩)
                (fun sch' pk' o' hl hx _ => hi.plist _ _ _ hl hx) hi.sorted hix
              refine ⟨h2, rfl, ?_, fun hc => absurd h1 hc⟩
              rw [h1, hn]
              congr 1
              refine view_put (sch := sch) hi.reg (by rfl) hreg hz (some o) ?_
              intro k
              rw [← hn]
              simp only [KV.get_set]

omit hi in
theorem Inv.create_total {o : O} (hp : Physical s.reg o) (he : Encodable s.reg o) : ∃ r s', s.create o = .ret (r, s') := by
  unfold Store.create
  cases hreg : s.reg.get (oname o) with
  | none => exact ⟨_, _, rfl⟩
  | some sch =>
    obtain ⟨pk, hpk⟩ := he.pk sch hreg
    simp only [objCreate, saveKey, hpk, saveKeyRaw, he.marshal]
    obtain ⟨⟨r, x⟩, hr⟩ := indexObject_total (kv := s.index) hpk (fun i hi => idxVal_of (he.idx sch hreg i hi)) (hp.keys hreg hpk)
    by_cases hz : pk.length = 0
    · simp [hz]
    · simp only [if_neg hz]
      by_cases hh : s.objects.has (sch.name ++ 47 :: pk) = true
      · simp [hh]
      · simp [hh, hr]

theorem Inv.update_spec {o : O} {r : Except OrmErr Unit} {s' : Store O}
    (h : s.update o = .ret (r, s')) :
    Inv s' ∧ s'.reg = s.reg ∧ (r, view s') = Spec.step s.reg (view s) (.update o) ∧
      (r ≠ .ok () → s' = s) := by
  unfold Spec.step keyOf
  simp only [Spec.Op.obj]
  unfold Store.update at h
  cases hreg : s.reg.get (oname o) with
  | none =>
    simp only [hreg, Out.ret.injEq, Prod.mk.injEq] at h ⊢
    obtain ⟨rfl, rfl⟩ := h
    exact ⟨hi, rfl, ⟨rfl, rfl⟩, fun _ => rfl⟩
  | some sch =>
    have hn := (Registry.get_mem hreg).2
    simp only [hreg, objUpdate, saveKey] at h ⊢
    cases hpk : sch.encodePrimaryKey o with
    | panic => simp [hpk] at h
    | ret pk =>
      simp only [hpk, saveKeyRaw] at h
      simp only [apply]
      by_cases hz : pk = []
      · subst hz
        simp only [List.length_nil, if_true, Out.ret.injEq, Prod.mk.injEq] at h ⊢
        obtain ⟨rfl, rfl⟩ := h
        exact ⟨hi, rfl, ⟨rfl, rfl⟩, fun _ => rfl⟩
      · have hz' : pk.length ≠ 0 := by simpa using hz
        simp only [if_neg hz, if_neg hz'] at h ⊢
        rw [view_eq hreg, if_neg hz, ← hn]
        cases hg : s.objects.get (sch.name ++ 47 :: pk) with
        | none =>
          have hh : s.objects.has (sch.name ++ 47 :: pk) = false := by simp [KV.has, hg]
          simp only [hh, Bool.not_false, if_true, Out.ret.injEq, Prod.mk.injEq, Option.isSome_none,
            Bool.false_eq_true, if_false] at h ⊢
          obtain ⟨rfl, rfl⟩ := h
          exact ⟨hi, rfl, ⟨rfl, rfl⟩, fun _ => rfl⟩
        | some old =>
          have hh : s.objects.has (sch.name ++ 47 :: pk) = true := by simp [KV.has, hg]
          simp only [hh, Bool.not_true, Bool.false_eq_true, if_false, Option.isSome_some, if_true] at h ⊢
          by_cases hmp : StateObject.marshalPanics o = true
          · simp [hmp] at h
          · simp only [hmp, Bool.false_eq_true, if_false] at h
            obtain ⟨hl, _, _, _, hphysOld⟩ := hi.live_of_get hreg hg
            obtain ⟨idx1, c1, c2, c3⟩ := clearIndexes_spec (o := o) (hi.schemaOk hreg) hpk hphysOld
              (fun hx => hi.plist _ _ _ hl hx)
            obtain ⟨d1, d2⟩ := hi.after_clear hl c2
            simp only [c1] at h
            cases hix : indexObject idx1 sch o with
            | panic => simp [hix] at h
            | ret q =>
              obtain ⟨r', idx'⟩ := q
              simp only [hix, Out.ret.injEq, Prod.mk.injEq] at h
              obtain ⟨rfl, rfl⟩ := h
              obtain ⟨h1, h2⟩ := hi.after_write hreg hpk hz d1 d2 (c3 hi.sorted) hix
              refine ⟨h2, rfl, ?_, fun hc => absurd h1 hc⟩
              rw [h1, hn]
              congr 1
              refine view_put (sch := sch) hi.reg (by rfl) hreg hz (some o) ?_
              intro k
              rw [← hn]
              simp only [KV.get_set]

theorem Inv.update_total {o : O} (hp : Physical s.reg o) (he : Encodable s.reg o) : ∃ r s', s.update o = .ret (r, s') := by
  unfold Store.update
  cases hreg : s.reg.get (oname o) with
  | none => exact ⟨_, _, rfl⟩
  | some sch =>
    obtain ⟨pk, hpk⟩ := he.pk sch hreg
    simp only [objUpdate, saveKey, hpk, saveKeyRaw, he.marshal]
    by_cases hz : pk.length = 0
    · simp [hz]
    · simp only [if_neg hz]
      cases hg : s.objects.get (sch.name ++ 47 :: pk) with
      | none => simp [KV.has, hg]
      | some old =>
        obtain ⟨hl, _, _, _, hphysOld⟩ := hi.live_of_get hreg hg
        obtain ⟨idx1, c1, c2, c3⟩ := clearIndexes_spec (o := o) (hi.schemaOk hreg) hpk hphysOld
          (fun hx => hi.plist _ _ _ hl hx)
        obtain ⟨⟨r, x⟩, hr⟩ := indexObject_total (kv := idx1) hpk (fun i hi => idxVal_of (he.idx sch hreg i hi)) (hp.keys hreg hpk)
        simp [KV.has, hg, c1, hr]

theorem Inv.delete_spec {o : O} {r : Except OrmErr Unit} {s' : Store O}
    (h : s.delete o = .ret (r, s')) :
    Inv s' ∧ s'.reg = s.reg ∧ (r, view s') = Spec.step s.reg (view s) (.delete o) ∧
      (r ≠ .ok () → s' = s) := by
  unfold Spec.step keyOf
  simp only [Spec.Op.obj]
  unfold Store.delete at h
  cases hreg : s.reg.get (oname o) with
  | none =>
    simp only [hreg, Out.ret.injEq, Prod.mk.injEq] at h ⊢
    obtain ⟨rfl, rfl⟩ := h
    exact ⟨hi, rfl, ⟨rfl, rfl⟩, fun _ => rfl⟩
  | some sch =>
    have hn := (Registry.get_mem hreg).2
    simp only [hreg, objDelete, saveKey] at h ⊢
    cases hpk : sch.encodePrimaryKey o with
    | panic => simp [hpk] at h
    | ret pk =>
      simp only [hpk, saveKeyRaw] at h
      simp only [apply]
      by_cases hz : pk = []
      · subst hz
        simp only [List.length_nil, if_true, Out.ret.injEq, Prod.mk.injEq] at h ⊢
        obtain ⟨rfl, rfl⟩ := h
        exact ⟨hi, rfl, ⟨rfl, rfl⟩, fun _ => rfl⟩
      · have hz' : pk.length ≠ 0 := by simpa using hz
        simp only [if_neg hz, if_neg hz'] at h ⊢
        rw [view_eq hreg, if_neg hz, ← hn]
        cases hg : s.objects.get (sch.name ++ 47 :: pk) with
        | none =>
          have hh : s.objects.has (sch.name ++ 47 :: pk) = false := by simp [KV.has, hg]
          simp only [hh, Bool.not_false, if_true, Out.ret.injEq, Prod.mk.injEq, Option.isSome_none,
            Bool.false_eq_true, if_false] at h ⊢
          obtain ⟨rfl, rfl⟩ := h
          exact ⟨hi, rfl, ⟨rfl, rfl⟩, fun _ => rfl⟩
        | some old =>
          have hh : s.objects.has (sch.name ++ 47 :: pk) = true := by simp [KV.has, hg]
          simp only [hh, Bool.not_true, Bool.false_eq_true, if_false, Option.isSome_some, if_true] at h ⊢
          obtain ⟨hl, _, _, _, hphysOld⟩ := hi.live_of_get hreg hg
          obtain ⟨idx1, c1, c2, c3⟩ := clearIndexes_spec (o := o) (hi.schemaOk hreg) hpk hphysOld
            (fun hx => hi.plist _ _ _ hl hx)
          obtain ⟨d1, d2⟩ := hi.after_clear hl c2
          simp only [c1, Out.ret.injEq, Prod.mk.injEq] at h
          obtain ⟨rfl, rfl⟩ := h
          have live_new : ∀ sch' pk' o', Live (O := O) { s with objects := (s.objects.delete (sch.name ++ 47 :: pk)).2, index := idx1 } sch' pk' o' ↔
              (Live s sch' pk' o' ∧ ¬ (sch'.name = sch.name ∧ pk' = pk)) := by
            intro sch' pk' o'
            constructor
            · intro hl'
              have hg' := hl'.get
              simp only [KV.get_delete] at hg'
              split at hg'
              · cases hg'
              · rename_i hne
                refine ⟨⟨hl'.reg, hl'.enc, hg'⟩, ?_⟩
                rintro ⟨e1, e2⟩; exact hne (by rw [e1, e2])
            · rintro ⟨hl', hnot⟩
              refine ⟨hl'.reg, hl'.enc, ?_⟩
              simp only [KV.get_delete]
              rw [if_neg]
              · exact hl'.get
              · intro he
                exact hnot (sep_inj (hi.schemaOk hl'.reg).noSlash (hi.schemaOk hreg).noSlash he)
          refine ⟨⟨hi.reg, ?_, ?_, ?_, c3 hi.sorted⟩, rfl, ?_, fun hc => absurd rfl hc⟩
          · intro key o' hg'
            simp only [KV.get_delete] at hg'
            split at hg'
            · cases hg'
            · exact hi.objs _ _ hg'
          · intro t
            simp only [d1 t, live_new]
            constructor
            · rintro ⟨a, b, c, d, e, f⟩; exact ⟨a, b, c, ⟨d, f⟩, e⟩
            · rintro ⟨a, b, c, ⟨d, f⟩, e⟩; exact ⟨a, b, c, d, e, f⟩
          · intro sch' pk' o' hl' hx
            obtain ⟨hl'', hnot⟩ := (live_new _ _ _).1 hl'
            exact d2 _ _ _ hl'' hx hnot
          · rw [hn]
            congr 1
            refine view_put (sch := sch) hi.reg (by rfl) hreg hz none ?_
            intro k
            rw [← hn]
            simp only [KV.get_delete]

theorem Inv.delete_total {o : O} (he : ∀ sch, s.reg.get (oname o) = some sch →
    ∃ pk, sch.encodePrimaryKey o = .ret pk) : ∃ r s', s.delete o = .ret (r, s') := by
  unfold Store.delete
  cases hreg : s.reg.get (oname o) with
  | none => exact ⟨_, _, rfl⟩
  | some sch =>
    obtain ⟨pk, hpk⟩ := he sch hreg
    simp only [objDelete, saveKey, hpk, saveKeyRaw]
    by_cases hz : pk.length = 0
    · simp [hz]
    · simp only [if_neg hz]
      cases hg : s.objects.get (sch.name ++ 47 :: pk) with
      | none => simp [KV.has, hg]
      | some old =>
        obtain ⟨hl, _, _, _, hphysOld⟩ := hi.live_of_get hreg hg
        obtain ⟨idx1, c1, c2, c3⟩ := clearIndexes_spec (o := o) (hi.schemaOk hreg) hpk hphysOld
          (fun hx => hi.plist _ _ _ hl hx)
        simp [KV.has, hg, c1]

end
end Verif
