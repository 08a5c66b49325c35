import Verif.Model.HashToCurve
import Verif.Model.Bip
import Verif.Spec.Recorded

/-!
# The generators, computed by the kernel

Sixteen generators are computed four at a time, to bound the memory that the kernel needs.
-/

set_option autoImplicit false

namespace MscPoc

theorem range16 : List.range 16 = [0, 1, 2, 3] ++ ([4, 5, 6, 7] ++ ([8, 9, 10, 11] ++ [12, 13, 14, 15])) := rfl

theorem p256_H : (p256Suite fun _ => none).hashToCurve [] SEEDH = recH256 := by decide +kernel
theorem p256_U : (p256Suite fun _ => none).hashToCurve [] SEEDU = recU256 := by decide +kernel
theorem p256_G0 : [0, 1, 2, 3].map (fun i => (p256Suite fun _ => none).hashToCurve [] (seedG i)) = (recGg256.drop 0).take 4 := by
  decide +kernel
theorem p256_G1 : [4, 5, 6, 7].map (fun i => (p256Suite fun _ => none).hashToCurve [] (seedG i)) = (recGg256.drop 4).take 4 := by
  decide +kernel
theorem p256_G2 : [8, 9, 10, 11].map (fun i => (p256Suite fun _ => none).hashToCurve [] (seedG i)) = (recGg256.drop 8).take 4 := by
  decide +kernel
theorem p256_G3 : [12, 13, 14, 15].map (fun i => (p256Suite fun _ => none).hashToCurve [] (seedG i)) = (recGg256.drop 12).take 4 := by
  decide +kernel
theorem p256_G : (List.range 16).map (fun i => (p256Suite fun _ => none).hashToCurve [] (seedG i)) = recGg256 := by
  rw [range16, List.map_append, List.map_append, List.map_append, p256_G0, p256_G1, p256_G2, p256_G3]
  rfl
theorem p256_Hh0 : [0, 1, 2, 3].map (fun i => (p256Suite fun _ => none).hashToCurve [] (seedHh i)) = (recHh256.drop 0).take 4 := by
  decide +kernel
theorem p256_Hh1 : [4, 5, 6, 7].map (fun i => (p256Suite fun _ => none).hashToCurve [] (seedHh i)) = (recHh256.drop 4).take 4 := by
  decide +kernel
theorem p256_Hh2 : [8, 9, 10, 11].map (fun i => (p256Suite fun _ => none).hashToCurve [] (seedHh i)) = (recHh256.drop 8).take 4 := by
  decide +kernel
theorem p256_Hh3 : [12, 13, 14, 15].map (fun i => (p256Suite fun _ => none).hashToCurve [] (seedHh i)) = (recHh256.drop 12).take 4 := by
  decide +kernel
theorem p256_Hh : (List.range 16).map (fun i => (p256Suite fun _ => none).hashToCurve [] (seedHh i)) = recHh256 := by
  rw [range16, List.map_append, List.map_append, List.map_append, p256_Hh0, p256_Hh1, p256_Hh2, p256_Hh3]
  rfl
theorem p384_H : (p384Suite fun _ => none).hashToCurve [] SEEDH = recH384 := by decide +kernel
theorem p384_U : (p384Suite fun _ => none).hashToCurve [] SEEDU = recU384 := by decide +kernel
theorem p384_G0 : [0, 1, 2, 3].map (fun i => (p384Suite fun _ => none).hashToCurve [] (seedG i)) = (recGg384.drop 0).take 4 := by
  decide +kernel
theorem p384_G1 : [4, 5, 6, 7].map (fun i => (p384Suite fun _ => none).hashToCurve [] (seedG i)) = (recGg384.drop 4).take 4 := by
  decide +kernel
theorem p384_G2 : [8, 9, 10, 11].map (fun i => (p384Suite fun _ => none).hashToCurve [] (seedG i)) = (recGg384.drop 8).take 4 := by
  decide +kernel
theorem p384_G3 : [12, 13, 14, 15].map (fun i => (p384Suite fun _ => none).hashToCurve [] (seedG i)) = (recGg384.drop 12).take 4 := by
  decide +kernel
theorem p384_G : (List.range 16).map (fun i => (p384Suite fun _ => none).hashToCurve [] (seedG i)) = recGg384 := by
  rw [range16, List.map_append, List.map_append, List.map_append, p384_G0, p384_G1, p384_G2, p384_G3]
  rfl
theorem p384_Hh0 : [0, 1, 2, 3].map (fun i => (p384Suite fun _ => none).hashToCurve [] (seedHh i)) = (recHh384.drop 0).take 4 := by
  decide +kernel
theorem p384_Hh1 : [4, 5, 6, 7].map (fun i => (p384Suite fun _ => none).hashToCurve [] (seedHh i)) = (recHh384.drop 4).take 4 := by
  decide +kernel
theorem p384_Hh2 : [8, 9, 10, 11].map (fun i => (p384Suite fun _ => none).hashToCurve [] (seedHh i)) = (recHh384.drop 8).take 4 := by
  decide +kernel
theorem p384_Hh3 : [12, 13, 14, 15].map (fun i => (p384Suite fun _ => none).hashToCurve [] (seedHh i)) = (recHh384.drop 12).take 4 := by
  decide +kernel
theorem p384_Hh : (List.range 16).map (fun i => (p384Suite fun _ => none).hashToCurve [] (seedHh i)) = recHh384 := by
  rw [range16, List.map_append, List.map_append, List.map_append, p384_Hh0, p384_Hh1, p384_Hh2, p384_Hh3]
  rfl

end MscPoc
