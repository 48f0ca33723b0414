import Verif.Model.PreG.g00
import Verif.Model.PreG.g01
import Verif.Model.PreG.g02
import Verif.Model.PreG.g03
import Verif.Model.PreG.g04
import Verif.Model.PreG.g05
import Verif.Model.PreG.g06
import Verif.Model.PreG.g07
import Verif.Model.PreG.g08
import Verif.Model.PreG.g09
import Verif.Model.PreG.g10
import Verif.Model.PreG.g11
import Verif.Model.PreG.g12
import Verif.Model.PreG.g13
import Verif.Model.PreG.g14
import Verif.Model.PreG.g15
import Verif.Model.PreG.h00
import Verif.Model.PreG.h01
import Verif.Model.PreG.h02
import Verif.Model.PreG.h03
import Verif.Model.PreG.h04
import Verif.Model.PreG.h05
import Verif.Model.PreG.h06
import Verif.Model.PreG.h07
import Verif.Model.PreG.h08
import Verif.Model.PreG.h09
import Verif.Model.PreG.h10
import Verif.Model.PreG.h11
import Verif.Model.PreG.h12
import Verif.Model.PreG.h13
import Verif.Model.PreG.h14
import Verif.Model.PreG.h15

/-!
# The static tables of `/repo/src/precomputed_ecmult.c`

`secp256k1_pre_g` and `secp256k1_pre_g_128` for `ECMULT_WINDOW_SIZE = 15`, 8192 entries each, copied
verbatim from the file (the copy is split into lists of 64 entries).
-/

namespace Secp.Model
open PreG

/-- All of `secp256k1_pre_g`, in pieces of 64 entries. -/
def preGData : List (List (Nat × Nat)) :=
  g00 ++ g01 ++ g02 ++ g03 ++ g04 ++ g05 ++ g06 ++ g07 ++ g08 ++ g09 ++ g10 ++ g11 ++ g12 ++ g13 ++ g14 ++ g15

/-- All of `secp256k1_pre_g_128`, in pieces of 64 entries. -/
def preG128Data : List (List (Nat × Nat)) :=
  h00 ++ h01 ++ h02 ++ h03 ++ h04 ++ h05 ++ h06 ++ h07 ++ h08 ++ h09 ++ h10 ++ h11 ++ h12 ++ h13 ++ h14 ++ h15

/-- `secp256k1_pre_g[i]`, precomputed_ecmult.c:16-8235 -/
def preG (i : Nat) : Nat × Nat := (preGData.getD (i / 64) []).getD (i % 64) (0, 0)

/-- `secp256k1_pre_g_128[i]`, precomputed_ecmult.c:8236-16455 -/
def preG128 (i : Nat) : Nat × Nat := (preG128Data.getD (i / 64) []).getD (i % 64) (0, 0)

end Secp.Model
