import Verif.Model.Tables.Devices1
import Verif.Model.Tables.Devices2
import Verif.Model.Tables.Devices3

namespace Verif.Model.Tables

/-- The cases of the switch in `New` in order, database/devices.go 33-1446. -/
def devRows : List DevRow :=
  devRows0 ++ devRows1 ++ devRows2 ++ devRows3 ++ devRows4 ++ devRows5 ++ devRows6 ++ devRows7 ++ devRows8 ++ devRows9 ++ devRows10 ++ devRows11

end Verif.Model.Tables
