import Verif.Model.Host
/-!
# What the host offers, and where

As documented in `qos_host`: four endpoints below the base path, which is `qos` unless another one was given. `get` stands also for `HEAD`, which axum gives to the handlers of `GET` and answers without the body.
-/
namespace Qos.Host

/-- Endpoint `e` is reached with method `m` at `path`. -/
inductive Offers (basePath : Option String) : Method → String → Endpoint → Prop where
  | hostHealth : Offers basePath .get ("/" ++ basePath.getD "qos" ++ "/host-health") .hostHealth
  | enclaveHealth : Offers basePath .get ("/" ++ basePath.getD "qos" ++ "/enclave-health") .enclaveHealth
  | message : Offers basePath .post ("/" ++ basePath.getD "qos" ++ "/message") .message
  | enclaveInfo : Offers basePath .get ("/" ++ basePath.getD "qos" ++ "/enclave-info") .enclaveInfo

end Qos.Host
