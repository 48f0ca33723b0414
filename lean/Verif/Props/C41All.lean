import Verif.Proof.GroupAll
import Verif.Props.C41
import Verif.Proof.EcmultGen
import Verif.Proof.Extrakeys

/-! # C41 (continued): batch conversion to affine coordinates -/

namespace Secp
open Model

/-- `secp256k1_ge_set_all_gej`: for any number of finite points, every entry of the result represents the
same point as the corresponding entry of the input. -/
theorem C41_set_all_gej {l : List (Gej Fp)} {Ps : List Pt} (h : List.Forall₂ (GejRep 7) l Ps)
    (h0 : ∀ P ∈ Ps, P ≠ 0) : List.Forall₂ (GeRep 7) (geSetAllGej l) Ps :=
  geSetAllGej_rep h h0

/-- `secp256k1_ge_set_all_gej_var`: the same, with any number of points at infinity anywhere. -/
theorem C41_set_all_gej_var {l : List (Gej Fp)} {Ps : List Pt} (h : List.Forall₂ (GejRep 7) l Ps) :
    List.Forall₂ (GeRep 7) (geSetAllGejVar l) Ps :=
  geSetAllGejVar_rep h

example : List.Forall₂ (GejRep 7) [gejInfinity, gejSetGe geConstG, gejInfinity] [0, G, 0] :=
  .cons (gejInfinity_rep 7) (.cons (gejSetGe_rep geConstG_rep) (.cons (gejInfinity_rep 7) .nil))

end Secp
