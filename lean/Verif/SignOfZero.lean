import Verif.Param
import Verif.Range.Format
/-!
# Specification: relations that runs of the code preserve, and the sign of zero

`Respected r`: the operations that the code applies to data take related operands to related results.  `MemRel r`, `IMemRel r`, `ORel` and
`FftRel r` (`Verif/Param.lean`) say that two memories are related entry by entry, that two calls end alike with related memories, and that an
FFT preserves the relation.

In IEEE arithmetic equality up to the sign of zeros is such a relation, and so is being the negative, up to the sign of zeros.
-/

namespace RustDct

/-- The operations on data preserve `r`. -/
structure Respected {T F : Type} [F64 F] [DctNum T F] (r : T → T → Prop) : Prop where
  zero : r 0 0
  add {a a' b b' : T} : r a a' → r b b' → r (a + b) (a' + b')
  sub {a a' b b' : T} : r a a' → r b b' → r (a - b) (a' - b')
  neg {a a' : T} : r a a' → r (-a) (-a')
  mul_const {a a' : T} (c : T) : r a a' → r (a * c) (a' * c)
  const_mul {a a' : T} (c : T) : r a a' → r (c * a) (c * a')

variable {f : Format}

/-- The same value, except that one may be `+0` and the other `-0`. -/
def Fp.Same (a b : Fp f) : Prop := a = b ∨ ∃ s t, a = .zero s ∧ b = .zero t

/-- `b` is the negative of `a`, up to the sign of zeros. -/
def Fp.Opposite (a b : Fp f) : Prop := Fp.Same (-a) b

end RustDct
