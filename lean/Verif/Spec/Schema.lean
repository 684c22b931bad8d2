import Verif.Model.Schema
/-! Which field kinds the documentation of the store supports. -/

namespace Verif.Spec

/-- Kinds whose values can be keys. -/
def keyKinds : List Kind := [.bool, .int32, .uint32, .int64, .uint64, .string, .bytes]

/-- Kinds a state object may contain. -/
def supportedKinds : List Kind := [.bool, .enum, .int32, .uint32, .int64, .uint64, .string, .bytes, .message]

end Verif.Spec
