import Verif.Model.Tables.Files1
import Verif.Model.Tables.Files2
import Verif.Model.Tables.Files3

namespace Verif.Model.Tables

/-- The files of database/json in the order of their names. -/
def devFiles : List DevFile :=
  devFiles0 ++ devFiles1 ++ devFiles2 ++ devFiles3 ++ devFiles4 ++ devFiles5 ++ devFiles6 ++ devFiles7 ++ devFiles8 ++ devFiles9 ++ devFiles10 ++ devFiles11

end Verif.Model.Tables
