import Verif.Model.Net
import Verif.Model.Wire
/-!
# The enclave's processor behind the socket server
-/
namespace Qos.Net
open Wire

/-- `ProtocolProcessor::process` (processor.rs:24-50), divided at the write lock. -/
noncomputable def enclave (E : Env) : Processor St where
  direct bs := if bs.length > maxEncodedMsgLen then errorAnswer .oversizedPayload
    else match fromWire bs with
      | .error e => errorAnswer e
      | .ok _ => none
  locked s bs := ((Wire.process E bs s).1.getD [], (Wire.process E bs s).2)

end Qos.Net
