import Verif.Model.Runtime
/-!
# Extension services (runtime/services.go, runtime/module/services.go)

A service is modelled by what its `Start` and `Stop` return.  The result of `Start` and `Stop`
below includes the calls made, in order.
-/

namespace Verif

/-- `ExtensionService` (runtime/services.go:14-17) and the outcome of its methods. -/
structure Service where
  moduleName : Bytes
  serviceName : Bytes
  start : Except Err Unit
  stop : Except Err Unit

/-- `ExtensionService.Name` (services.go:19-21): "module.service". -/
def Service.name (s : Service) : Bytes := s.moduleName ++ 46 :: s.serviceName

/-- `ServiceGroup.AddServices` (services.go:33-40). -/
def addServices (group : List Service) (moduleName : Bytes) (xts : List Service) : List Service :=
  group ++ xts.map fun x => { x with moduleName }

/-- A call made to a service; `start` carries the identifier of the client it was given. -/
inductive ServiceCall where
  | start (svc : Service) (clientId : Bytes)
  | stop (svc : Service)

/-- `ServiceGroup.Start` (services.go:44-55): calls made and result.  The error returned wraps
the error of the service. -/
def startServices : List Service → List ServiceCall × Except Err Unit
  | [] => ([], .ok ())
  | svc :: rest => match svc.start with
    | .error e => ([.start svc svc.name], .error e)
    | .ok () =>
      let r := startServices rest
      (.start svc svc.name :: r.1, r.2)

/-- `ServiceGroup.Stop` (services.go:57-68): calls made and the errors collected; `ErrorOrNil`
is nil exactly when none was collected. -/
def stopServices : List Service → List ServiceCall × List Err
  | [] => ([], [])
  | svc :: rest =>
    let r := stopServices rest
    match svc.stop with
    | .error e => (.stop svc :: r.1, e :: r.2)
    | .ok () => (.stop svc :: r.1, r.2)

end Verif
