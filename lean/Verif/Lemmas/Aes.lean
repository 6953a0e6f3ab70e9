import Verif.Model.Aes
import Verif.Spec.Aes
import Verif.Lemmas.BlockCipher
import Mathlib.Tactic.IntervalCases
import Mathlib.Tactic.FinCases
/-
  Tables, words and rounds of AES.
-/
namespace Kryptos.Aes
open Spec (Aes.sbox)

theorem forall_byte {P : Byte → Prop} (h : ∀ i : Fin 256, P (BitVec.ofFin i)) (b : Byte) : P b := h b.toFin

/-! ### Tables

The tables as single numbers: the kernel finds the byte `i` of a number quickly. -/

def sboxN : Nat := 0x16bb54b00f2d99416842e6bf0d89a18cdf2855cee9871e9b948ed9691198f8e19e1dc186b95735610ef6034866b53e708a8bbd4b1f74dde8c6b4a61c2e2578ba08ae7a65eaf4566ca94ed58d6d37c8e779e4959162acd3c25c2406490a3a32e0db0b5ede14b8ee4688902a22dc4f816073195d643d7ea7c41744975fec130ccdd2f3ff1021dab6bcf5389d928f40a351a89f3c507f02f94585334d43fbaaefd0cf584c4a39becb6a5bb1fc20ed00d153842fe329b3d63b52a05a6e1b1a2c830975b227ebe28012079a059618c323c7041531d871f1e5a534ccf73f362693fdb7c072a49cafa2d4adf04759fa7dc982ca76abd7fe2b670130c56f6bf27b777c63
def invSboxN : Nat := 0x7d0c2155631469e126d677ba7e042b17619953833cbbebc8b0f52aae4d3be0a0ef9cc9939f7ae52d0d4ab519a97f51605fec8027591012b131c7078833a8dd1ff45acd78fec0db9a2079d2c64b3e56fc1bbe18aa0e62b76f89c5291d711af1476edf751ce837f9e28535ade72274ac9673e6b4f0cecff297eadc674f4111913a6b8a130103bdafc1020f3fca8f1e2cd00645b3b80558e4f70ad3bc8c00abd890849d8da75746155edab9edfd5048706c92b6655dcc5ca4d41698688664f6f87225d18b6d49a25b76b224d92866a12e084ec3fa420b954cee3d23c2a632947b54cbe9dec444438e3487ff2f9b8239e37cfbd7f3819ea340bf38a53630d56a0952
def invN : Nat := 0x1c411acda07d9cdd8c0346683438235bb31e505de3d74e08adcf0ec6ebd60db16b90f89dd5c48b94eae2dbc563ae077ae6acfc1b045327a90fe4d4daa32f280b5786bcbd3d768ea571787511ef1fe00c62d2e7ce4a12c8264865b88fc32e7cfb9a89dcf9889f142a72848ad86d326adea4b902f7d9959e9b56be7396807f7e838281faa106d070b63cbab5108597b7793b219333df9147f44336a649d3af5e161761ec51f0223e18bf87244cca055ced09e9255413ab64a769f5312d6737fe1d1959bb776f2035f2426639f36c92452cc2a2443015980ac1c9a84d55f15a6e3ab2ee40ffccfd3f585f602b994baab474c7e5e1b0c0294fe8d17b52cbf68d0100
def pN : Nat := 0x1f652c7b46c241cfda297847cdd4b39170df2a794858a8f8c8d7b29ee5a36120ef351c6423ee3a891868b79de4acf45ca46cbb099772d1b0907f4a563211ffc54c543c8b16f25eaaf6523e858c1b69b80898e7adfbc9d827e2aefac64d5ba9f75dabf9c742ced5bc040c9473de25ec3413f15fa5632e75dc2b76dd24e3a16fba06020e9ae93712fecad92877d2b19fea361d6bb69271d0bf0503010f957c4b59a76db49ceb398817fdcbd6bd0b99e838878281808f1a662d74d3be0a967d44ccdb26ed3b868d14fcc443c140c04f55331e6ab9070d9be6a26eb5937e45c34e5aa66221e0a0602f7a49573d84838e15f3513f8a196722e1aff5533110f050301
def lN : Nat := 0x770f7c0808c630d18fe31c5deed4a67a5e3997726b87cb4892e2023d9921144abd3f2565d9e2a14476da2413c843953d15b3f37cdcf95bcfcdcbe619087b2979d2955aa6ca1523b86b160fb5a3ebbccb77b76a42d1f43d8ec49c4176ff60c7fa051a99cb05fcb59f50b16eb7a75d72ce8ade6e7d5e9ae4f74d6eaf450a858af57a773f3e5acd44eca5e9f9b150a792bba3d85fa54286b3a421eb6a3c3486e7e1091882298e225b3628b06bf30fddd6638834640f1d25c1394ced036bddb8f968eda93354582f01224e10f21058a2f657809c99a72a6e44d6a27b9f9b51dc27dc11c69f8c808714cef818d340ee0046403dfee33681bc74bc61a02320119ff00

def fast (N : Nat) (i : Nat) : Byte := BitVec.ofNat 8 (N >>> (8 * i))

theorem getElem_fast (N : Nat) (t : List Byte) (h : t = (List.range 256).map (fast N)) (i : Nat) (hi : i < t.length) :
    t[i] = fast N i := by
  subst h; simp

theorem sboxTable_eq : sboxTable = (List.range 256).map (fast sboxN) := by decide +kernel
theorem invSboxTable_eq : invSboxTable = (List.range 256).map (fast invSboxN) := by decide +kernel
theorem pTable_eq : pTable = (List.range 256).map (fast pN) := by decide +kernel
theorem lTable_eq : lTable = (List.range 256).map (fast lN) := by decide +kernel

theorem sbox_fast (b : Byte) : sbox b = fast sboxN b.toNat := getElem_fast _ _ sboxTable_eq _ _
theorem invSbox_fast (b : Byte) : invSbox b = fast invSboxN b.toNat := getElem_fast _ _ invSboxTable_eq _ _
theorem mulXY_fast (x y : Byte) : mulXY x y =
    if x ≠ 0 ∧ y ≠ 0 then fast pN (((fast lN x.toNat).toNat + (fast lN y.toNat).toNat) % 255) else 0 := by
  unfold mulXY look
  simp only [getElem_fast _ _ lTable_eq, getElem_fast _ _ pTable_eq]

theorem inv_fast (b : Byte) : Spec.Aes.inv b = fast invN b.toNat := by
  revert b; exact forall_byte (by decide +kernel)

theorem sbox_eq (b : Byte) : sbox b = Spec.Aes.sbox b := by
  unfold Spec.Aes.sbox
  rw [sbox_fast, inv_fast]; revert b; exact forall_byte (by decide +kernel)
theorem invSbox_sbox (b : Byte) : invSbox (sbox b) = b := by
  rw [sbox_fast, invSbox_fast]; revert b; exact forall_byte (by decide +kernel)
theorem sbox_invSbox (b : Byte) : sbox (invSbox b) = b := by
  rw [sbox_fast, invSbox_fast]; revert b; exact forall_byte (by decide +kernel)

/-- `Spec.Aes.inv` is the inverse. -/
theorem mul_inv (b : Byte) : b ≠ 0 → Spec.Aes.mul b (Spec.Aes.inv b) = 1 := by
  rw [inv_fast]; revert b; exact forall_byte (by decide +kernel)

open Spec.Aes (mul xtime)

theorem mulXY_1 (b : Byte) : mulXY b 0x01#8 = b := by rw [mulXY_fast]; revert b; exact forall_byte (by decide +kernel)
theorem mulXY_2 (b : Byte) : mulXY b 0x02#8 = mul b 0x02#8 := by rw [mulXY_fast]; revert b; exact forall_byte (by decide +kernel)
theorem mulXY_3 (b : Byte) : mulXY b 0x03#8 = mul b 0x03#8 := by rw [mulXY_fast]; revert b; exact forall_byte (by decide +kernel)
theorem mulXY_9 (b : Byte) : mulXY b 0x09#8 = mul b 0x09#8 := by rw [mulXY_fast]; revert b; exact forall_byte (by decide +kernel)
theorem mulXY_b (b : Byte) : mulXY b 0x0B#8 = mul b 0x0B#8 := by rw [mulXY_fast]; revert b; exact forall_byte (by decide +kernel)
theorem mulXY_d (b : Byte) : mulXY b 0x0D#8 = mul b 0x0D#8 := by rw [mulXY_fast]; revert b; exact forall_byte (by decide +kernel)
theorem mulXY_e (b : Byte) : mulXY b 0x0E#8 = mul b 0x0E#8 := by rw [mulXY_fast]; revert b; exact forall_byte (by decide +kernel)

theorem xtime_xor (a b : Byte) : xtime (a ^^^ b) = xtime a ^^^ xtime b := by
  unfold xtime
  rw [BitVec.getLsbD_xor]
  cases ha : a.getLsbD 7 <;> cases hb : b.getLsbD 7 <;>
    (apply BitVec.eq_of_getLsbD_eq; intro i hi; interval_cases i <;> simp)

/-- Multiplication is additive. -/
theorem mul_xor (a b c : Byte) : mul (a ^^^ b) c = mul a c ^^^ mul b c := by
  unfold mul
  induction List.range 8 with
  | nil => simp
  | cons i l ih =>
    simp only [List.foldr_cons, ih, xtime_xor]
    split
    · ac_rfl
    · simp

/-! ### Words -/

theorem unpack_pack (x : Four Byte) : unpack (pack x) = x := by
  obtain ⟨a, b, c, d⟩ := x
  simp only [unpack, Four.mk.injEq]
  refine ⟨?_, ?_, ?_, ?_⟩ <;>
    (apply BitVec.eq_of_getLsbD_eq; intro i hi; unfold getU8 pack; interval_cases i <;> simp)

theorem pack_unpack (x : W32) : pack (unpack x) = x := by
  apply BitVec.eq_of_getLsbD_eq; intro i hi; unfold unpack getU8 pack; interval_cases i <;> simp

theorem unpack_xor (x y : W32) : unpack (x ^^^ y) = (unpack x).zip (· ^^^ ·) (unpack y) := by
  simp only [unpack, Four.zip, Four.mk.injEq]
  refine ⟨?_, ?_, ?_, ?_⟩ <;>
    (apply BitVec.eq_of_getLsbD_eq; intro i hi; unfold getU8; interval_cases i <;> simp)

theorem unpack_rotl8 (x : Four Byte) : unpack (rotl (pack x) 8) = ⟨x.b, x.c, x.d, x.a⟩ := by
  have h : ∀ y : W32, unpack (rotl y 8) = ⟨(unpack y).b, (unpack y).c, (unpack y).d, (unpack y).a⟩ := by
    intro y
    simp only [unpack, Four.mk.injEq]
    refine ⟨?_, ?_, ?_, ?_⟩ <;>
      (apply BitVec.eq_of_getLsbD_eq; intro i hi; unfold getU8 rotl; interval_cases i <;> simp)
  rw [h, unpack_pack]

theorem unpack_rotl16 (x : Four Byte) : unpack (rotl (pack x) 16) = ⟨x.c, x.d, x.a, x.b⟩ := by
  have h : ∀ y : W32, unpack (rotl y 16) = ⟨(unpack y).c, (unpack y).d, (unpack y).a, (unpack y).b⟩ := by
    intro y
    simp only [unpack, Four.mk.injEq]
    refine ⟨?_, ?_, ?_, ?_⟩ <;>
      (apply BitVec.eq_of_getLsbD_eq; intro i hi; unfold getU8 rotl; interval_cases i <;> simp)
  rw [h, unpack_pack]

theorem unpack_rotl24 (x : Four Byte) : unpack (rotl (pack x) 24) = ⟨x.d, x.a, x.b, x.c⟩ := by
  have h : ∀ y : W32, unpack (rotl y 24) = ⟨(unpack y).d, (unpack y).a, (unpack y).b, (unpack y).c⟩ := by
    intro y
    simp only [unpack, Four.mk.injEq]
    refine ⟨?_, ?_, ?_, ?_⟩ <;>
      (apply BitVec.eq_of_getLsbD_eq; intro i hi; unfold getU8 rotl; interval_cases i <;> simp)
  rw [h, unpack_pack]

theorem subWord_eq (v : W32) : subWord v = pack ((unpack v).map sbox) := by
  unfold subWord
  simp only [unpack, Four.map]
  generalize sbox (getU8 v 0) = a
  generalize sbox (getU8 v 1) = b
  generalize sbox (getU8 v 2) = c
  generalize sbox (getU8 v 3) = d
  rw [← pack_unpack (_ ||| _ ||| _ ||| _)]
  congr 1
  simp only [unpack, Four.mk.injEq]
  refine ⟨?_, ?_, ?_, ?_⟩ <;> (apply BitVec.eq_of_getLsbD_eq; intro i hi; unfold getU8; interval_cases i <;> simp)

/-! ### Columns -/

theorem unpack_mixCol (v : Four Byte) : unpack (mixCol (pack v)) =
    ⟨mul v.a 2#8 ^^^ mul v.b 3#8 ^^^ v.c ^^^ v.d, v.a ^^^ mul v.b 2#8 ^^^ mul v.c 3#8 ^^^ v.d,
      v.a ^^^ v.b ^^^ mul v.c 2#8 ^^^ mul v.d 3#8, mul v.a 3#8 ^^^ v.b ^^^ v.c ^^^ mul v.d 2#8⟩ := by
  unfold mixCol mulCol
  rw [unpack_pack, unpack_pack]
  rw [show unpack 0x02030101#32 = ⟨2#8, 3#8, 1#8, 1#8⟩ by decide, show unpack 0x01020301#32 = ⟨1#8, 2#8, 3#8, 1#8⟩ by decide,
    show unpack 0x01010203#32 = ⟨1#8, 1#8, 2#8, 3#8⟩ by decide, show unpack 0x03010102#32 = ⟨3#8, 1#8, 1#8, 2#8⟩ by decide]
  simp only [rowMul, mulXY_1, mulXY_2, mulXY_3]

theorem unpack_invMixCol (v : Four Byte) : unpack (invMixCol (pack v)) =
    ⟨mul v.a 14#8 ^^^ mul v.b 11#8 ^^^ mul v.c 13#8 ^^^ mul v.d 9#8, mul v.a 9#8 ^^^ mul v.b 14#8 ^^^ mul v.c 11#8 ^^^ mul v.d 13#8,
      mul v.a 13#8 ^^^ mul v.b 9#8 ^^^ mul v.c 14#8 ^^^ mul v.d 11#8,
      mul v.a 11#8 ^^^ mul v.b 13#8 ^^^ mul v.c 9#8 ^^^ mul v.d 14#8⟩ := by
  unfold invMixCol mulCol
  rw [unpack_pack, unpack_pack]
  rw [show unpack 0x0E0B0D09#32 = ⟨14#8, 11#8, 13#8, 9#8⟩ by decide, show unpack 0x090E0B0D#32 = ⟨9#8, 14#8, 11#8, 13#8⟩ by decide,
    show unpack 0x0D090E0B#32 = ⟨13#8, 9#8, 14#8, 11#8⟩ by decide, show unpack 0x0B0D090E#32 = ⟨11#8, 13#8, 9#8, 14#8⟩ by decide]
  simp only [rowMul, mulXY_9, mulXY_b, mulXY_d, mulXY_e]

/-- The product of the two matrices is the unit matrix: one entry of each diagonal. -/
theorem inv0 (x : Byte) : mul (mul x 2#8) 14#8 ^^^ mul x 11#8 ^^^ mul x 13#8 ^^^ mul (mul x 3#8) 9#8 = x := by
  simp only [← mulXY_2, ← mulXY_3, ← mulXY_9, ← mulXY_b, ← mulXY_d, ← mulXY_e, mulXY_fast]; revert x; exact forall_byte (by decide +kernel)
theorem inv1 (x : Byte) : mul (mul x 3#8) 14#8 ^^^ mul (mul x 2#8) 11#8 ^^^ mul x 13#8 ^^^ mul x 9#8 = 0 := by
  simp only [← mulXY_2, ← mulXY_3, ← mulXY_9, ← mulXY_b, ← mulXY_d, ← mulXY_e, mulXY_fast]; revert x; exact forall_byte (by decide +kernel)
theorem inv2 (x : Byte) : mul x 14#8 ^^^ mul (mul x 3#8) 11#8 ^^^ mul (mul x 2#8) 13#8 ^^^ mul x 9#8 = 0 := by
  simp only [← mulXY_2, ← mulXY_3, ← mulXY_9, ← mulXY_b, ← mulXY_d, ← mulXY_e, mulXY_fast]; revert x; exact forall_byte (by decide +kernel)
theorem inv3 (x : Byte) : mul x 14#8 ^^^ mul x 11#8 ^^^ mul (mul x 3#8) 13#8 ^^^ mul (mul x 2#8) 9#8 = 0 := by
  simp only [← mulXY_2, ← mulXY_3, ← mulXY_9, ← mulXY_b, ← mulXY_d, ← mulXY_e, mulXY_fast]; revert x; exact forall_byte (by decide +kernel)
theorem inv0' (x : Byte) : mul (mul x 14#8) 2#8 ^^^ mul (mul x 9#8) 3#8 ^^^ mul x 13#8 ^^^ mul x 11#8 = x := by
  simp only [← mulXY_2, ← mulXY_3, ← mulXY_9, ← mulXY_b, ← mulXY_d, ← mulXY_e, mulXY_fast]; revert x; exact forall_byte (by decide +kernel)
theorem inv1' (x : Byte) : mul (mul x 11#8) 2#8 ^^^ mul (mul x 14#8) 3#8 ^^^ mul x 9#8 ^^^ mul x 13#8 = 0 := by
  simp only [← mulXY_2, ← mulXY_3, ← mulXY_9, ← mulXY_b, ← mulXY_d, ← mulXY_e, mulXY_fast]; revert x; exact forall_byte (by decide +kernel)
theorem inv2' (x : Byte) : mul (mul x 13#8) 2#8 ^^^ mul (mul x 11#8) 3#8 ^^^ mul x 14#8 ^^^ mul x 9#8 = 0 := by
  simp only [← mulXY_2, ← mulXY_3, ← mulXY_9, ← mulXY_b, ← mulXY_d, ← mulXY_e, mulXY_fast]; revert x; exact forall_byte (by decide +kernel)
theorem inv3' (x : Byte) : mul (mul x 9#8) 2#8 ^^^ mul (mul x 13#8) 3#8 ^^^ mul x 11#8 ^^^ mul x 14#8 = 0 := by
  simp only [← mulXY_2, ← mulXY_3, ← mulXY_9, ← mulXY_b, ← mulXY_d, ← mulXY_e, mulXY_fast]; revert x; exact forall_byte (by decide +kernel)

theorem inv_mix (v : Four Byte) : unpack (invMixCol (mixCol (pack v))) = v := by
  rw [← pack_unpack (mixCol (pack v)), unpack_mixCol, unpack_invMixCol]
  obtain ⟨a, b, c, d⟩ := v
  simp only [mul_xor, Four.mk.injEq]
  refine ⟨?_, ?_, ?_, ?_⟩
  · calc _ = (mul (mul a 2#8) 14#8 ^^^ mul a 11#8 ^^^ mul a 13#8 ^^^ mul (mul a 3#8) 9#8) ^^^
        (mul (mul b 3#8) 14#8 ^^^ mul (mul b 2#8) 11#8 ^^^ mul b 13#8 ^^^ mul b 9#8) ^^^
        (mul c 14#8 ^^^ mul (mul c 3#8) 11#8 ^^^ mul (mul c 2#8) 13#8 ^^^ mul c 9#8) ^^^
        (mul d 14#8 ^^^ mul d 11#8 ^^^ mul (mul d 3#8) 13#8 ^^^ mul (mul d 2#8) 9#8) := by ac_rfl
      _ = a := by rw [inv0, inv1, inv2, inv3]; simp
  · calc _ = (mul (mul b 2#8) 14#8 ^^^ mul b 11#8 ^^^ mul b 13#8 ^^^ mul (mul b 3#8) 9#8) ^^^
        (mul (mul c 3#8) 14#8 ^^^ mul (mul c 2#8) 11#8 ^^^ mul c 13#8 ^^^ mul c 9#8) ^^^
        (mul d 14#8 ^^^ mul (mul d 3#8) 11#8 ^^^ mul (mul d 2#8) 13#8 ^^^ mul d 9#8) ^^^
        (mul a 14#8 ^^^ mul a 11#8 ^^^ mul (mul a 3#8) 13#8 ^^^ mul (mul a 2#8) 9#8) := by ac_rfl
      _ = b := by rw [inv0, inv1, inv2, inv3]; simp
  · calc _ = (mul (mul c 2#8) 14#8 ^^^ mul c 11#8 ^^^ mul c 13#8 ^^^ mul (mul c 3#8) 9#8) ^^^
        (mul (mul d 3#8) 14#8 ^^^ mul (mul d 2#8) 11#8 ^^^ mul d 13#8 ^^^ mul d 9#8) ^^^
        (mul a 14#8 ^^^ mul (mul a 3#8) 11#8 ^^^ mul (mul a 2#8) 13#8 ^^^ mul a 9#8) ^^^
        (mul b 14#8 ^^^ mul b 11#8 ^^^ mul (mul b 3#8) 13#8 ^^^ mul (mul b 2#8) 9#8) := by ac_rfl
      _ = c := by rw [inv0, inv1, inv2, inv3]; simp
  · calc _ = (mul (mul d 2#8) 14#8 ^^^ mul d 11#8 ^^^ mul d 13#8 ^^^ mul (mul d 3#8) 9#8) ^^^
        (mul (mul a 3#8) 14#8 ^^^ mul (mul a 2#8) 11#8 ^^^ mul a 13#8 ^^^ mul a 9#8) ^^^
        (mul b 14#8 ^^^ mul (mul b 3#8) 11#8 ^^^ mul (mul b 2#8) 13#8 ^^^ mul b 9#8) ^^^
        (mul c 14#8 ^^^ mul c 11#8 ^^^ mul (mul c 3#8) 13#8 ^^^ mul (mul c 2#8) 9#8) := by ac_rfl
      _ = d := by rw [inv0, inv1, inv2, inv3]; simp

theorem mix_inv (v : Four Byte) : unpack (mixCol (invMixCol (pack v))) = v := by
  rw [← pack_unpack (invMixCol (pack v)), unpack_invMixCol, unpack_mixCol]
  obtain ⟨a, b, c, d⟩ := v
  simp only [mul_xor, Four.mk.injEq]
  refine ⟨?_, ?_, ?_, ?_⟩
  · calc _ = (mul (mul a 14#8) 2#8 ^^^ mul (mul a 9#8) 3#8 ^^^ mul a 13#8 ^^^ mul a 11#8) ^^^
        (mul (mul b 11#8) 2#8 ^^^ mul (mul b 14#8) 3#8 ^^^ mul b 9#8 ^^^ mul b 13#8) ^^^
        (mul (mul c 13#8) 2#8 ^^^ mul (mul c 11#8) 3#8 ^^^ mul c 14#8 ^^^ mul c 9#8) ^^^
        (mul (mul d 9#8) 2#8 ^^^ mul (mul d 13#8) 3#8 ^^^ mul d 11#8 ^^^ mul d 14#8) := by ac_rfl
      _ = a := by rw [inv0', inv1', inv2', inv3']; simp
  · calc _ = (mul (mul b 14#8) 2#8 ^^^ mul (mul b 9#8) 3#8 ^^^ mul b 13#8 ^^^ mul b 11#8) ^^^
        (mul (mul c 11#8) 2#8 ^^^ mul (mul c 14#8) 3#8 ^^^ mul c 9#8 ^^^ mul c 13#8) ^^^
        (mul (mul d 13#8) 2#8 ^^^ mul (mul d 11#8) 3#8 ^^^ mul d 14#8 ^^^ mul d 9#8) ^^^
        (mul (mul a 9#8) 2#8 ^^^ mul (mul a 13#8) 3#8 ^^^ mul a 11#8 ^^^ mul a 14#8) := by ac_rfl
      _ = b := by rw [inv0', inv1', inv2', inv3']; simp
  · calc _ = (mul (mul c 14#8) 2#8 ^^^ mul (mul c 9#8) 3#8 ^^^ mul c 13#8 ^^^ mul c 11#8) ^^^
        (mul (mul d 11#8) 2#8 ^^^ mul (mul d 14#8) 3#8 ^^^ mul d 9#8 ^^^ mul d 13#8) ^^^
        (mul (mul a 13#8) 2#8 ^^^ mul (mul a 11#8) 3#8 ^^^ mul a 14#8 ^^^ mul a 9#8) ^^^
        (mul (mul b 9#8) 2#8 ^^^ mul (mul b 13#8) 3#8 ^^^ mul b 11#8 ^^^ mul b 14#8) := by ac_rfl
      _ = c := by rw [inv0', inv1', inv2', inv3']; simp
  · calc _ = (mul (mul d 14#8) 2#8 ^^^ mul (mul d 9#8) 3#8 ^^^ mul d 13#8 ^^^ mul d 11#8) ^^^
        (mul (mul a 11#8) 2#8 ^^^ mul (mul a 14#8) 3#8 ^^^ mul a 9#8 ^^^ mul a 13#8) ^^^
        (mul (mul b 13#8) 2#8 ^^^ mul (mul b 11#8) 3#8 ^^^ mul b 14#8 ^^^ mul b 9#8) ^^^
        (mul (mul c 9#8) 2#8 ^^^ mul (mul c 13#8) 3#8 ^^^ mul c 11#8 ^^^ mul c 14#8) := by ac_rfl
      _ = d := by rw [inv0', inv1', inv2', inv3']; simp

end Kryptos.Aes
