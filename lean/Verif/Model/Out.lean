/-!
# Observable outcome of an API call

Pointers passed to the API are `Option`s (`none` is NULL), buffers are byte lists.  A call has a
return value, leaves some values in the caller's memory, and may have called the illegal-argument
callback.  The library's default callback aborts; the model follows the code after a callback that
returns, which covers both (`illegal > 0` means the default callback would have aborted).

`ctx == NULL` is undefined behaviour in a build without VERIFY (it is dereferenced) and outside the
model: the context is a value, not a pointer.
-/

namespace Secp

/-- Return value, number of calls of the illegal-argument callback, and the memory that the
function writes through its pointer arguments. -/
structure Out (α : Type) where
  ret : Int
  illegal : Nat
  val : α
  deriving DecidableEq, Repr

/-- `ARG_CHECK` failing, src/secp256k1.c:45-50: one call of the callback, return 0; `v` is what the
caller's memory holds at that point. -/
def Out.argFail {α : Type} (v : α) : Out α := ⟨0, 1, v⟩

end Secp
