import Verif.Model.Universe
/-!
# Protobuf files and their dependencies (pkg/protoutils/desc/desc.go:78-104,
runtime/module/descriptor.go:65-73)

A file descriptor is given with its imports, so import cycles (which protoc refuses) cannot be
written down.  A path identifies a file: two files with one path in the same tree are taken to
be equal by the theorems that need it.
-/

namespace Verif

/-- `protoreflect.FileDescriptor`: path, content as far as it is used, imports. -/
inductive File where
  | mk (path : Bytes) (content : ProtoFile) (imports : List File)

def File.path : File → Bytes
  | .mk p _ _ => p

def File.content : File → ProtoFile
  | .mk _ c _ => c

def File.imports : File → List File
  | .mk _ _ is => is

mutual
/-- `dependencies` (desc.go:85-104): the list and the updated `knownDeps`. -/
def dependencies (known : List Bytes) : File → List File × List Bytes
  | .mk _ _ imports => dependenciesLoop known imports

/-- The loop of `dependencies` (desc.go:88-101): a path is marked as known after its own
dependencies have been collected. -/
def dependenciesLoop (known : List Bytes) : List File → List File × List Bytes
  | [] => ([], known)
  | dep :: rest =>
    if dep.path ∈ known then dependenciesLoop known rest
    else
      let r := dependencies known dep
      let r' := dependenciesLoop (dep.path :: r.2) rest
      (r.1 ++ dep :: r'.1, r'.2)
end

/-- `desc.Dependencies` (desc.go:81-83). -/
def File.dependencies (f : File) : List File := (Verif.dependencies [] f).1

/-- `getDeps` (runtime/module/descriptor.go:65-73): the dependencies and the file itself. -/
def File.withDependencies (f : File) : List File := f.dependencies ++ [f]

end Verif
