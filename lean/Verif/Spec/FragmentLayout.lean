import Verif.Model.Fragment
import Verif.Spec.Encodings
/-
Specification of the bytes of a fragment, [MS-PSRP] 2.2.4.
-/
namespace Verif

/-- [MS-PSRP] 2.2.4: ids of 8 bytes, a byte with the flags (S is the lowest bit, E the next, the others are 0), the length in 4 bytes, all with the highest
byte first, and the data. -/
structure FragmentBytes (f : Fragment) (b : Bytes) : Prop where
  object : bytesValue (b.take 8) = f.objectId
  fragment : bytesValue ((b.drop 8).take 8) = f.fragmentId
  flags : ∃ x, (b.drop 16).take 1 = [x] ∧ bitsOf x = [false, false, false, false, false, false, f.end_, f.start]
  length : bytesValue ((b.drop 17).take 4) = f.data.length
  data : b.drop 21 = f.data
  size : b.length = 21 + f.data.length

end Verif
