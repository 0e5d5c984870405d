import Verif.Conformance.Real
import Verif.Conformance.Fixtures
/-!
# Replay of integration/tests/preprod_sharding.rs

The recorded shares and quorum public keys of six deployed enclaves (1-of-1 sharing): the old developer key opens each share;
without its first byte, which is 1, it is the seed of the recorded public key. A check of the model against the real
program, not a property.
-/
namespace Qos.Conformance
open P256 (Pair)

/-- The check of one enclave. -/
def anchored (share pub : Bytes) : Bool :=
  match Pair.fromHexContents realPrims oldDevSecret with
  | .ok dev => match dev.decrypt realPrims share with
    | .ok (1 :: seed) => match Pair.fromMasterSeed realPrims seed with
      | .ok k => Hex.encode (k.publicKey realPrims).toBytes == pub
      | .error _ => false
    | _ => false
  | .error _ => false

example : anchored preprodUmpShare preprodUmpPub = true := by decide +kernel
example : anchored preprodEvmParserShare preprodEvmParserPub = true := by decide +kernel
example : anchored preprodNotarizerShare preprodNotarizerPub = true := by decide +kernel
example : anchored preprodSignerShare preprodSignerPub = true := by decide +kernel
example : anchored preprodTlsFetcherShare preprodTlsFetcherPub = true := by decide +kernel
example : anchored preprodDeployTestShare preprodDeployTestPub = true := by decide +kernel

end Qos.Conformance
