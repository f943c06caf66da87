import Verif.Wire.TypeTablesV2a
import Verif.Wire.TypeTablesV2b
import Verif.Wire.TypeTablesV2c
import Verif.Wire.TypeTablesV16
import Verif.Wire.TypeTablesCommon

/-! All structs of the messages. -/

namespace Verif.Wire

/-- The structs of include/ocpp/v2/ocpp_types.hpp, v2/messages/*.hpp, v16/ocpp_types.hpp and v16/messages/*.hpp, and those of
TypeTablesCommon.lean. -/
def types : List TypeTable := typesV2a ++ typesV2b ++ typesV2c ++ typesV16 ++ typesCommon

end Verif.Wire
