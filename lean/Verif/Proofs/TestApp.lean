import Verif.Spec.TestApp
import Verif.Proofs.ORMFacts
/-! # Building the application -/

namespace Verif
open Spec

/-- `parseObjectSchema` for descriptors without map fields. -/
def parseFlat (api : APIDef) (d : MsgDesc) (o : SchemaDef) : Except SchemaErr Schema :=
  if !o.validate then .error .badDefinition
  else if unsupportedKinds.any fun k => d.fields.any fun f => f.kind = k then .error .badDefinition
  else
    let pk : Except SchemaErr (Option (Bytes × Kind)) :=
      if o.singleton then
        if o.primaryKey ≠ [] then .error .badDefinition else .ok none
      else match d.fields.find? (fun f => f.json = o.primaryKey) with
        | none => .error .badDefinition
        | some f => if f.kind.hasEncoder then .ok (some (o.primaryKey, f.kind))
          else .error .badDefinition
    match pk with
    | .error e => .error e
    | .ok pk =>
      if o.secondaryKeys = [] then .ok { api, pk, indexes := [] }
      else if o.singleton then .error .badDefinition
      else match newIndexers d o.secondaryKeys with
        | .error e => .error e
        | .ok is => .ok { api, pk, indexes := is }

theorem parseObjectSchema_flat {env : DescEnv} {fuel : Nat} {d : MsgDesc}
    (h : d.fields.any FieldDesc.isMap = false) (api : APIDef) (o : SchemaDef) :
    parseObjectSchema env (fuel + 1) api d o = some (parseFlat api d o) := by
  unfold parseObjectSchema parseFlat
  rw [hasMap_eq, h, hasKinds_eq h]
  split
  · rfl
  · dsimp only
    cases unsupportedKinds.any fun k => d.fields.any fun f => decide (f.kind = k)
    · dsimp only
      simp only [Bool.false_eq_true, if_false]
      generalize (ite (o.singleton = true) _ _ : Except SchemaErr (Option (Bytes × Kind))) = p
      cases p with
      | error e => rfl
      | ok pk =>
        dsimp only
        split
        · rfl
        · split
          · rfl
          · cases newIndexers d o.secondaryKeys <;> rfl
    · rfl

/-- `registerObjects` for descriptors without map fields. -/
def registerFlat : List ObjectEntry → Registry → Except BuildErr Registry
  | [], r => .ok r
  | e :: es, r => match parseFlat e.api e.desc e.schema with
    | .error x => .error (.schema x)
    | .ok sch => match r.add sch with
      | .error x => .error (.schema x)
      | .ok r => registerFlat es r

theorem registerObjects_flat {env : DescEnv} {fuel : Nat} : ∀ {es : List ObjectEntry} {r : Registry},
    (∀ e ∈ es, e.desc.fields.any FieldDesc.isMap = false) →
    registerObjects env (fuel + 1) es r = some (registerFlat es r)
  | [], _, _ => rfl
  | e :: es, r, h => by
    unfold registerObjects registerFlat
    rw [parseObjectSchema_flat (h e (by simp))]
    cases parseFlat e.api e.desc e.schema with
    | error x => rfl
    | ok sch =>
      dsimp only
      cases r.add sch with
      | error x => rfl
      | ok r => exact registerObjects_flat fun e he => h e (by simp [he])

theorem app_objects (lib : Libs) :
    ∀ e ∈ ((appModules lib).map AppModule.desc).flatMap (·.objects),
      e.desc.fields.any FieldDesc.isMap = false := by
  have : (((appModules lib).map AppModule.desc).flatMap (·.objects)).all
      (fun e => !(e.desc.fields.any FieldDesc.isMap)) = true := by rfl
  intro e he
  have := List.all_eq_true.1 this e he
  simpa using this

theorem app_register (lib : Libs) (env : DescEnv) (n : Nat) :
    registerObjects env (n + 1) (((appModules lib).map AppModule.desc).flatMap (·.objects)) [] =
      some (.ok appReg) := by
  rw [registerObjects_flat (app_objects lib)]
  rfl

theorem app_build (lib : Libs) (env : DescEnv) (n : Nat) :
    build env (n + 1) ((appModules lib).map AppModule.desc) = some (.ok (appBuilt lib)) := by
  unfold build
  rw [app_register]
  rfl

theorem app_regOk : RegOk appReg := by
  refine ⟨by decide, ?_⟩
  have : ∀ s ∈ appReg, (47 ∉ s.name ∧ s.name.head? ≠ some 0 ∧ (s.indexes.map (·.name)).Nodup) ∧
      s.indexes.length < 3 := by decide
  intro s hs
  obtain ⟨⟨h1, h2, h3⟩, h4⟩ := this s hs
  exact ⟨h1, fun t ht => h2 (by rw [ht]; rfl), h3, by omega⟩

end Verif
