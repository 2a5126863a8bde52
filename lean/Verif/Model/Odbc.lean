/-
  The connection string for SQL Server: dialect/mssql/connection.py:33-51.
-/
import Verif.Model.Connect

set_option autoImplicit false

namespace PySqlSync

/-- `f"{self.params.host},{self.params.port}"`, or the host (36-40); a host that is not given is written as `None`. -/
def ConnParams.odbcServer (p : ConnParams) : Option Text :=
  match p.port with
  | some port => some ((match p.host with | some h => h | none => t "None") ++ t "," ++ natStr port)
  | none => p.host

/-- The dictionary (33-48). -/
def ConnParams.odbcParams (p : ConnParams) : List (Text × Option Text) :=
  [(t "DRIVER", some (t "{ODBC Driver 18 for SQL Server}")), (t "APP", some (t "pysqlsync")), (t "SERVER", p.odbcServer), (t "UID", p.username), (t "PWD", p.password),
   (t "LongAsMax", some (t "yes")), (t "TrustServerCertificate", some (t "yes"))] ++
  (match p.database with
    | some d => [(t "DATABASE", some d)]
    | none => [])

/-- `";".join(...)` (49-51). -/
def ConnParams.odbcString (p : ConnParams) : Text :=
  joinWith (t ";") (p.odbcParams.filterMap (fun (k, v) => v.map (fun v => k ++ t "=" ++ v)))

end PySqlSync
