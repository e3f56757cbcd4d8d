import Verif.Np.Basic

/-!
# `metsim/constants.py`

Numeric constants, `/repo/metsim/constants.py:38-80`.  Integers of the source that are used as counts
are `Nat`; the others are elements of the number field.
-/

namespace Verif.Cnst

variable {K : Type} [Field K]

/-- constants.py:38 -/ def DEG_PER_REV : K := 360.0
/-- constants.py:39 -/ def SEC_PER_RAD : K := 13750.9871
/-- constants.py:40 -/ def RAD_PER_DAY : K := 0.017214
/-- constants.py:41 -/ def RAD_PER_DEG : K := 0.01745329
/-- constants.py:42 -/ def MIN_DECL : K := -0.4092797
/-- constants.py:43 -/ def DAYS_OFF : K := 11.25
/-- constants.py:45 (seconds per radiation slot; `30.0`, used as an integer in slot counts) -/
def SW_RAD_DT : Nat := 30
/-- constants.py:47 -/ def MA : K := 28.9644e-3
/-- constants.py:48 -/ def R : K := 8.3143
/-- constants.py:49 -/ def R_DRY : K := 287
/-- constants.py:50 -/ def G_STD : K := 9.80665
/-- constants.py:51 -/ def P_STD : K := 101325.0
/-- constants.py:52 -/ def T_STD : K := 288.15
/-- constants.py:53 -/ def CP : K := 1010.0
/-- constants.py:55 -/ def KELVIN : K := 273.15
/-- constants.py:56 -/ def EPS : K := 0.62196351
/-- constants.py:57 -/ def DAYS_PER_YEAR : K := 365.25
/-- constants.py:58 -/ def SEC_PER_DAY : Nat := 86400
/-- constants.py:59 -/ def SEC_PER_MIN : Nat := 60
/-- constants.py:60 -/ def MIN_PER_HOUR : Nat := 60
/-- constants.py:61 -/ def HOURS_PER_DAY : Nat := 24
/-- constants.py:62 -/ def MIN_PER_DAY : Nat := 1440
/-- constants.py:63 -/ def SEC_PER_HOUR : Nat := 3600
/-- constants.py:64 -/ def STEFAN_B : K := 5.669e-8
/-- constants.py:67 -/ def MBAR_PER_BAR : K := 1000.0
/-- constants.py:68 -/ def MM_PER_CM : K := 10.0
/-- constants.py:69 -/ def MAX_PERCENT : K := 100.0
/-- constants.py:73 -/ def C : K := 1.5
/-- constants.py:74 -/ def B0 : K := 0.031
/-- constants.py:75 -/ def B1 : K := 0.201
/-- constants.py:76 -/ def B2 : K := 0.185
/-- constants.py:77 -/ def TBASE : K := 0.870
/-- constants.py:78 -/ def ABASE : K := -6.1e-5

end Verif.Cnst
