import Verif.Spec.Sizes

/-! The messages of a radio that have no data, by type, subsystem and command number. -/

namespace Zcc.Spec

/-- Responses to ZDO_FORCE_CONCENTRATOR_CHANGE and to five requests of the simple API; the commands
SAPI_SYSTEM_RESET and UTIL_SYNC_REQ. -/
def emptyMessages : List (CommandType × Subsystem × Nat) :=
  [(.SRSP, .ZDO, 0x52), (.SRSP, .SAPI, 0), (.SRSP, .SAPI, 1), (.SRSP, .SAPI, 2), (.SRSP, .SAPI, 3),
   (.SRSP, .SAPI, 7), (.AREQ, .SAPI, 9), (.AREQ, .UTIL, 0xE0)]

end Zcc.Spec
