import Verif.Np.Dict
import Verif.Np.Text

/-!
# Longwave options: dispatch tables of `longwave` (`metsim/disaggregate.py`)
-/

namespace Verif.Lw

/-- The clear-sky parameterisations. -/
inductive LwType where
  | tva | anderson | brutsaert | satterlund | idso | prata
  deriving DecidableEq, Repr

/-- The cloud parameterisations. -/
inductive Cloud where
  | tva | deardorff
  deriving DecidableEq, Repr

/-- disaggregate.py:527-562 the keys of `emissivity_calc` -/
def emissivityCalc : Dict String LwType :=
  [("DEFAULT", .tva), ("TVA", .tva), ("ANDERSON", .anderson), ("BRUTSAERT", .brutsaert),
   ("SATTERLUND", .satterlund), ("IDSO", .idso), ("PRATA", .prata)]

/-- disaggregate.py:563-572 the keys of `cloud_calc` -/
def cloudCalc : Dict String Cloud :=
  [("DEFAULT", .tva), ("TVA", .tva), ("CLOUD_DEARDORFF", .deardorff)]

/-- `s.upper()` -/
def upperS (s : String) : String := String.ofList (Txt.upper s.toList)

/-- disaggregate.py:578 `emissivity_calc[params['lw_type'].upper()]` -/
def lwTypeOf (s : String) : Except PyErr LwType := emissivityCalc.get (upperS s)
/-- disaggregate.py:580 `cloud_calc[params['lw_cloud'].upper()]` -/
def cloudOf (s : String) : Except PyErr Cloud := cloudCalc.get (upperS s)

end Verif.Lw
