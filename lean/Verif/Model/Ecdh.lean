import Verif.Model.ApiKey
import Verif.Model.EcmultConst
import Verif.Model.Hash

/-!
# Model of `/repo/src/modules/ecdh/main_impl.h`
-/

namespace Secp.Model

open FeOps

/-- A hash function for ECDH (include/secp256k1_ecdh.h:20-25): from the old contents of `output`, the
two coordinates and (in the closure) the caller's `data`, the return value and the new contents of
`output`. -/
abbrev EcdhHash := (output x32 y32 : List UInt8) → Int × List UInt8

/-- `ecdh_hash_function_sha256`, ecdh/main_impl.h:13-25 -/
def ecdhHashSha256 : EcdhHash := fun output x32 y32 =>
  let version : UInt8 := ((y32.getD 31 0) &&& 0x01) ||| 0x02
  let sha := Hash.init Hash.uninit
  let sha := Hash.write sha [version]
  let sha := Hash.write sha (x32.take 32)
  (1, put output 0 (Hash.finalize sha).1)

/-- The hash function that is called: the default one if NULL is given, ecdh/main_impl.h:44-46. -/
def ecdhHashOrDefault : Option EcdhHash → EcdhHash
  | some f => f
  | none => ecdhHashSha256

/-- `secp256k1_ecdh`, ecdh/main_impl.h:30-72.  Memory: `output`.  The return value of
`secp256k1_pubkey_load` is ignored; an invalid object only calls the callback. -/
def ecdh (output point scalar : Option (List UInt8)) (hashfp : Option EcdhHash) :
    Out (Option (List UInt8)) :=
  match output with
  | none => .argFail none
  | some out =>
    match point with
    | none => .argFail (some out)
    | some point =>
      match scalar with
      | none => .argFail (some out)
      | some scalar =>
        let q := pubkeyLoad point
        let s := scSetB32 scalar
        let overflow := s.2 || scIsZero s.1
        let sc := scCmov s.1 1 overflow
        let res := ecmultConst q.1 sc
        let pt := geSetGej res
        let x := feGetB32 (FeOps.normalize pt.x)
        let y := feGetB32 (FeOps.normalize pt.y)
        let r := ecdhHashOrDefault hashfp out x y
        ⟨cInt (r.1 ≠ 0 && !overflow), if q.2 then 0 else 1, some r.2⟩

end Secp.Model
