import Verif.Spec.Codegen
/-!
# When generated code compiles

The parts of the rules of Go (the Go Programming Language Specification, "Keywords", "Identifiers", "Declarations and scope",
"Interface types") that generated code could break: the names that are used must be declared, a value assigned to an
interface must have its methods, and the parameters of a function must be names, different ones, that hide
nothing that the body uses. Names are those of ASCII letters.
-/

namespace Verif.Spec

/-- The keywords of Go. -/
def goKeywords : List Bytes :=
  [b!"break", b!"case", b!"chan", b!"const", b!"continue", b!"default", b!"defer", b!"else", b!"fallthrough", b!"for", b!"func",
   b!"go", b!"goto", b!"if", b!"import", b!"interface", b!"map", b!"package", b!"range", b!"return", b!"select", b!"struct",
   b!"switch", b!"type", b!"var"]

def nameStart (c : UInt8) : Prop := (65 ≤ c ∧ c ≤ 90) ∨ (97 ≤ c ∧ c ≤ 122) ∨ c = 95

def namePart (c : UInt8) : Prop := nameStart c ∨ (48 ≤ c ∧ c ≤ 57)

/-- A name that can be declared and used. -/
def GoName (b : Bytes) : Prop :=
  (∃ c r, b = c :: r ∧ nameStart c ∧ ∀ x ∈ r, namePart x) ∧ b ≠ b!"_" ∧ b ∉ goKeywords

/-- The names in a function: the receiver and the parameters, the variables it declares, and the names from outside that its
body uses. -/
structure FuncScope where
  params : List Bytes
  locals : List Bytes
  used : List Bytes

/-- The names in a generated function. -/
def declScope : Decl → Option FuncScope
  | .apiDefinition _ _ _ _ => some ⟨[b!"x"], [], [b!"meta"]⟩
  | .newStateObject r | .newStateTransition r => some ⟨[b!"x"], [], [b!"new", r]⟩
  | .getSingleton _ o => some ⟨[b!"x", b!"opts"], [b!"_spfGenO", b!"_spfGenErr"], [b!"new", o, b!"meta", b!"nil"]⟩
  | .getByKey _ o p _ _ =>
    some ⟨[b!"x", p, b!"opts"], [b!"_spfGenO", b!"_spfGenID", b!"_spfGenErr"], [b!"new", o, b!"meta", b!"nil"]⟩
  | .list _ o i => some ⟨[b!"x", b!"opts"], [b!"iter", b!"err"], [b!"new", o, b!"nil", i]⟩
  | .create _ _ p | .delete _ _ p | .update _ _ p => some ⟨[b!"x", p, b!"opts"], [], []⟩
  | .iteratorGet _ o => some ⟨[b!"x"], [b!"obj", b!"err"], [b!"new", o]⟩
  | .iteratorValid _ | .iteratorNext _ => some ⟨[b!"x"], [], []⟩
  | .newClientSet fields => some ⟨[b!"client"], [], b!"clientSet" :: fields⟩
  | .accessor _ _ _ => some ⟨[b!"x"], [], []⟩
  | .exec _ _ => some ⟨[b!"x", b!"msg"], [], []⟩
  | _ => none

/-- The names of a function are as Go wants them. -/
def ScopeOk (s : FuncScope) : Prop :=
  (∀ p ∈ s.params, GoName p) ∧ (s.params ++ s.locals).Nodup ∧ ∀ u ∈ s.used, u ∉ s.params ++ s.locals

/-- The names of the package that a declaration uses. -/
def declRefs : Decl → List Bytes
  | .apiDefinition r _ _ _ | .newStateObject r | .newStateTransition r => [r]
  | .clientInterface _ o none => [o]
  | .clientInterface _ o (some _) => [o, o ++ b!"Iterator"]
  | .clientStruct _ | .iteratorStruct _ | .schema _ _ => []
  | .getSingleton r o => [r, o]
  | .getByKey r o _ _ _ => [r, o]
  | .list r o i => [r, o ++ b!"Iterator", o, i]
  | .create r o _ | .delete r o _ | .update r o _ => [r, o]
  | .iteratorInterface _ o => [o]
  | .iteratorGet r o => [r, o]
  | .iteratorValid r | .iteratorNext r => [r]
  | .clientSetInterface os ts => os.map Prod.snd ++ ts.map Prod.snd
  | .newClientSet fs => b!"ClientSet" :: b!"clientSet" :: fs
  | .clientSetStruct fs => fs.map Prod.snd
  | .accessor _ t _ => [b!"clientSet", t]
  | .exec _ m => [b!"clientSet", m]

/-- A method without its receiver: the name, the types of parameters and of results. -/
structure Method where
  name : Bytes
  params : List Bytes
  results : List Bytes
  deriving DecidableEq

/-- The methods that `Create`, `Delete` and `Update` are. -/
def changeMethod (name o : Bytes) : Method := ⟨name, [b!"*" ++ o, b!"..." ++ name ++ b!"Option"], [b!"error"]⟩

/-- `Get` of a client. -/
def getMethod (o : Bytes) (key : List Bytes) : Method := ⟨b!"Get", key ++ [b!"...GetOption"], [b!"*" ++ o, b!"error"]⟩

/-- `List` of a client. -/
def listMethod (o : Bytes) : Method := ⟨b!"List", [b!"...ListOption"], [o ++ b!"Iterator", b!"error"]⟩

/-- The method that a declaration declares, with the type it is of. -/
def declSignature : Decl → Option (Bytes × Method)
  | .getSingleton r o => some (r, getMethod o [])
  | .getByKey r o _ t _ => some (r, getMethod o [t])
  | .list r o _ => some (r, listMethod o)
  | .create r o _ => some (r, changeMethod b!"Create" o)
  | .delete r o _ => some (r, changeMethod b!"Delete" o)
  | .update r o _ => some (r, changeMethod b!"Update" o)
  | .iteratorGet r o => some (r, ⟨b!"Get", [], [b!"*" ++ o, b!"error"]⟩)
  | .iteratorValid r => some (r, ⟨b!"Valid", [], [b!"bool"]⟩)
  | .iteratorNext r => some (r, ⟨b!"Next", [], []⟩)
  | .accessor n t _ => some (b!"clientSet", ⟨n, [], [t]⟩)
  | .exec n m => some (b!"clientSet", ⟨n, [b!"*" ++ m], [b!"error"]⟩)
  | _ => none

/-- The interface that a declaration declares. -/
def declInterface : Decl → Option (Bytes × List Method)
  | .clientInterface n o key => some (n,
      (match key with
        | none => [getMethod o []]
        | some (_, t) => [getMethod o [t], listMethod o]) ++
      [changeMethod b!"Create" o, changeMethod b!"Delete" o, changeMethod b!"Update" o])
  | .iteratorInterface n o =>
    some (n, [⟨b!"Get", [], [b!"*" ++ o, b!"error"]⟩, ⟨b!"Valid", [], [b!"bool"]⟩, ⟨b!"Next", [], []⟩])
  | .clientSetInterface os ts => some (b!"ClientSet",
      os.map (fun o => ⟨o.1, [], [o.2]⟩) ++ ts.map (fun t => ⟨t.1, [b!"*" ++ t.2], [b!"error"]⟩))
  | _ => none

/-- The code makes an interface of a struct: `List` returns an iterator, `NewClientSet` a client set with a client in each
field. -/
def Assigned (l : List Decl) (struct interface : Bytes) : Prop :=
  (∃ r o, Decl.list r o struct ∈ l ∧ interface = o ++ b!"Iterator") ∨
  (∃ fs gs, Decl.newClientSet fs ∈ l ∧ Decl.clientSetStruct gs ∈ l ∧ struct ∈ fs ∧ (struct, interface) ∈ gs) ∨
  (∃ fs, Decl.newClientSet fs ∈ l ∧ struct = b!"clientSet" ∧ interface = b!"ClientSet")

/-- The struct has the methods of the interface, which is declared. -/
def Implements (l : List Decl) (struct interface : Bytes) : Prop :=
  ∃ ms, (interface, ms) ∈ l.filterMap declInterface ∧ ∀ m ∈ ms, (struct, m) ∈ l.filterMap declSignature

/-- The names of messages consist of letters, digits and underscores. -/
def GoLetters (f : GenFile) : Prop := ∀ m ∈ f.messages, ∀ c ∈ m.goName, namePart c

/-- The parameter named like an object can be declared. -/
def ParamOk (m : GenMsg) : Prop :=
  lowerFirst m.goName ∉ goKeywords ∧ lowerFirst m.goName ≠ b!"x" ∧ lowerFirst m.goName ≠ b!"opts"

/-- The parameter named like the primary key can be declared, and hides nothing that is used. -/
def KeyOk (m : GenMsg) (key : Bytes) : Prop :=
  GoName key ∧ key ∉ [b!"x", b!"opts", b!"_spfGenO", b!"_spfGenID", b!"_spfGenErr", b!"new", b!"meta", b!"nil"] ∧ key ≠ m.goName

end Verif.Spec
