import Verif.Model.Hash
import Verif.Model.Out

namespace Secp

/-- `secp256k1_tagged_sha256`, src/secp256k1.c:783-795.  `hash32` is the caller's output buffer. -/
def taggedSha256 (hash32 : Option (List UInt8)) (tag msg : Option (List UInt8)) :
    Out (Option (List UInt8)) :=
  match hash32 with
  | none => .argFail hash32
  | some _ =>
    match tag with
    | none => .argFail hash32
    | some tag =>
      match msg with
      | none => .argFail hash32
      | some msg =>
        let sha := Hash.initializeTagged Hash.uninit tag
        let sha := Hash.write sha msg
        ⟨1, 0, some (Hash.finalize sha).1⟩

end Secp
