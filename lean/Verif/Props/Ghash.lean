import Verif.Proof.Ghash

/-! C54: the multiplication of GHASH. -/

namespace Verif.Props

open Verif.Model Verif.Spec.Gcm Verif.Proof

/-- C54: load two blocks, reflect them, multiply, reflect and store: the block product of NIST SP 800-38D, for all pairs of 16-byte blocks. -/
theorem C54_multiplication (x y : List Byte) (hx : x.length = 16) (hy : y.length = 16) :
    storeu (reflect (galoisMultiply (reflect (loadBytes x)) (reflect (loadBytes y)))) = unblock (mul (block x) (block y)) := by
  rw [reflect_load x hx, reflect_load y hy, galoisMultiply_spec, storeu_reflect]

/-- A case that meets the hypotheses of `C54_multiplication`. -/
example := C54_multiplication (List.replicate 16 3#8) (List.replicate 16 5#8) rfl rfl

/-- C54, on registers. -/
theorem C54_register (a b : M128) : reflect (galoisMultiply (reflect a) (reflect b)) =
    loadBytes (unblock (mul (block (storeu a)) (block (storeu b)))) := by
  rw [← C54_multiplication _ _ (storeu_length a) (storeu_length b), load_storeu, load_storeu, load_storeu]

/-- One step of GHASH: `Y_i = (Y_(i-1) + X_i) • H`. -/
theorem C54_step (x y h : List Byte) (hx : x.length = 16) (hy : y.length = 16) (hh : h.length = 16) :
    storeu (reflect (ghashBlock (reflect (loadBytes x)) (reflect (loadBytes h)) (reflect (loadBytes y)))) =
      unblock (mul (block y ^^^ block x) (block h)) := by
  rw [reflect_load x hx, reflect_load y hy, reflect_load h hh, ghashBlock, ← reverse_xor]
  first
    | rw [galoisMultiply_spec, storeu_reflect]
    | rw [BitVec.xor_comm, galoisMultiply_spec, storeu_reflect]

/-- A case that meets the hypotheses of `C54_step`. -/
example := C54_step (List.replicate 16 3#8) (List.replicate 16 5#8) (List.replicate 16 7#8) rfl rfl rfl

/-- The multiplication of the standard is commutative. -/
theorem C54_commutative (x y : BitVec 128) : mul x y = mul y x := by
  have := galoisMultiply_spec x y
  have h2 := galoisMultiply_spec y x
  rw [galoisMultiply_pmul, ← reduce_prod, prod256, clprod_comm, ← prod256, reduce_prod, ← galoisMultiply_pmul, h2] at this
  have := congrArg BitVec.reverse this
  rwa [BitVec.reverse_reverse_eq, BitVec.reverse_reverse_eq, eq_comm] at this

/-- The block of McGrew and Viega's test case 2. -/
example : storeu (reflect (galoisMultiply (reflect (loadBytes (unhex "0388dace60b6a392f328c2b971b2fe78")))
    (reflect (loadBytes (unhex "66e94bd4ef8a2c3b884cfa59ca342b2e"))))) = unhex "5e2ec746917062882c85b0685353deb7" := by decide +kernel

end Verif.Props
