import Verif.Rijndael.Props

/-! # The vectors of FIPS 197, appendix C, step by step (generated)

The whole computation is too large for one kernel evaluation; every step is evaluated on literals. -/

namespace Cex.Rijndael
open Cex.Aes (onBytes)

/-- The reference cipher is known where the code has been run. -/
theorem aes_of_run {key p r : List Byte} {nr : Nat} {rk : List Word} (hk : key.length = 16 ∨ key.length = 24 ∨ key.length = 32)
    (hx : standardExpand key = .ok (nr, rk)) (hp : p.length = 16) (he : encrypt128 rk nr p 0 (List.replicate 16 0) 0 = .ok r) :
    onBytes (Aes.aes key) p = r := by
  obtain ⟨⟨x, h1, h2⟩, _⟩ := C55_encrypt key hk
  have h3 := h2 p 0 p ⟨[], [], by simp, rfl⟩ hp [] (List.replicate 16 0) [] List.length_replicate
  have h4 : Rhx.init true key = .ok ⟨true, nr, rk⟩ := by
    rw [Rhx.init, if_neg (by omega)]
    simp only []
    rw [hx]
    rfl
  have h5 := Except.ok.inj (h1.symm.trans h4)
  subst h5
  simp only [List.nil_append, List.append_nil, List.length_nil, Rhx.transform, if_true] at h3
  rw [he] at h3
  exact (Except.ok.inj h3).symm

/-- The plaintext of appendix C. -/
def fipsPlain : List Byte := [0x00, 0x11, 0x22, 0x33, 0x44, 0x55, 0x66, 0x77, 0x88, 0x99, 0xAA, 0xBB, 0xCC, 0xDD, 0xEE, 0xFF]

/-- The 16-byte key 00 01 02 …. -/
def fipsKey16 : List Byte := [0x00, 0x01, 0x02, 0x03, 0x04, 0x05, 0x06, 0x07, 0x08, 0x09, 0x0A, 0x0B, 0x0C, 0x0D, 0x0E, 0x0F]

def fipsRk16 : List Word := [0x00010203, 0x04050607, 0x08090A0B, 0x0C0D0E0F, 0xD6AA74FD, 0xD2AF72FA, 0xDAA678F1, 0xD6AB76FE, 0xB692CF0B, 0x643DBDF1, 0xBE9BC500, 0x6830B3FE, 0xB6FF744E, 0xD2C2C9BF, 0x6C590CBF, 0x0469BF41, 0x47F7F7BC, 0x95353E03, 0xF96C32BC, 0xFD058DFD, 0x3CAAA3E8, 0xA99F9DEB, 0x50F3AF57, 0xADF622AA, 0x5E390F7D, 0xF7A69296, 0xA7553DC1, 0x0AA31F6B, 0x14F9701A, 0xE35FE28C, 0x440ADF4D, 0x4EA9C026, 0x47438735, 0xA41C65B9, 0xE016BAF4, 0xAEBF7AD2, 0x549932D1, 0xF0855768, 0x1093ED9C, 0xBE2C974E, 0x13111D7F, 0xE3944A17, 0xF307A78B, 0x4D2B30C5]

theorem fips_expand_16 : standardExpand fipsKey16 = .ok (10, fipsRk16) := by
  have h0 : loadKey 4 fipsKey16 [0x00000000, 0x00000000, 0x00000000, 0x00000000, 0x00000000, 0x00000000, 0x00000000, 0x00000000, 0x00000000, 0x00000000, 0x00000000, 0x00000000, 0x00000000, 0x00000000, 0x00000000, 0x00000000, 0x00000000, 0x00000000, 0x00000000, 0x00000000, 0x00000000, 0x00000000, 0x00000000, 0x00000000, 0x00000000, 0x00000000, 0x00000000, 0x00000000, 0x00000000, 0x00000000, 0x00000000, 0x00000000, 0x00000000, 0x00000000, 0x00000000, 0x00000000, 0x00000000, 0x00000000, 0x00000000, 0x00000000, 0x00000000, 0x00000000, 0x00000000, 0x00000000] = .ok [0x00010203, 0x04050607, 0x08090A0B, 0x0C0D0E0F, 0x00000000, 0x00000000, 0x00000000, 0x00000000, 0x00000000, 0x00000000, 0x00000000, 0x00000000, 0x00000000, 0x00000000, 0x00000000, 0x00000000, 0x00000000, 0x00000000, 0x00000000, 0x00000000, 0x00000000, 0x00000000, 0x00000000, 0x00000000, 0x00000000, 0x00000000, 0x00000000, 0x00000000, 0x00000000, 0x00000000, 0x00000000, 0x00000000, 0x00000000, 0x00000000, 0x00000000, 0x00000000, 0x00000000, 0x00000000, 0x00000000, 0x00000000, 0x00000000, 0x00000000, 0x00000000, 0x00000000] := by decide +kernel
  have h1 : expandRot 4 4 1 [0x00010203, 0x04050607, 0x08090A0B, 0x0C0D0E0F, 0x00000000, 0x00000000, 0x00000000, 0x00000000, 0x00000000, 0x00000000, 0x00000000, 0x00000000, 0x00000000, 0x00000000, 0x00000000, 0x00000000, 0x00000000, 0x00000000, 0x00000000, 0x00000000, 0x00000000, 0x00000000, 0x00000000, 0x00000000, 0x00000000, 0x00000000, 0x00000000, 0x00000000, 0x00000000, 0x00000000, 0x00000000, 0x00000000, 0x00000000, 0x00000000, 0x00000000, 0x00000000, 0x00000000, 0x00000000, 0x00000000, 0x00000000, 0x00000000, 0x00000000, 0x00000000, 0x00000000] = .ok [0x00010203, 0x04050607, 0x08090A0B, 0x0C0D0E0F, 0xD6AA74FD, 0xD2AF72FA, 0xDAA678F1, 0xD6AB76FE, 0x00000000, 0x00000000, 0x00000000, 0x00000000, 0x00000000, 0x00000000, 0x00000000, 0x00000000, 0x00000000, 0x00000000, 0x00000000, 0x00000000, 0x00000000, 0x00000000, 0x00000000, 0x00000000, 0x00000000, 0x00000000, 0x00000000, 0x00000000, 0x00000000, 0x00000000, 0x00000000, 0x00000000, 0x00000000, 0x00000000, 0x00000000, 0x00000000, 0x00000000, 0x00000000, 0x00000000, 0x00000000, 0x00000000, 0x00000000, 0x00000000, 0x00000000] := by decide +kernel
  have h2 : expandRot 8 4 2 [0x00010203, 0x04050607, 0x08090A0B, 0x0C0D0E0F, 0xD6AA74FD, 0xD2AF72FA, 0xDAA678F1, 0xD6AB76FE, 0x00000000, 0x00000000, 0x00000000, 0x00000000, 0x00000000, 0x00000000, 0x00000000, 0x00000000, 0x00000000, 0x00000000, 0x00000000, 0x00000000, 0x00000000, 0x00000000, 0x00000000, 0x00000000, 0x00000000, 0x00000000, 0x00000000, 0x00000000, 0x00000000, 0x00000000, 0x00000000, 0x00000000, 0x00000000, 0x00000000, 0x00000000, 0x00000000, 0x00000000, 0x00000000, 0x00000000, 0x00000000, 0x00000000, 0x00000000, 0x00000000, 0x00000000] = .ok [0x00010203, 0x04050607, 0x08090A0B, 0x0C0D0E0F, 0xD6AA74FD, 0xD2AF72FA, 0xDAA678F1, 0xD6AB76FE, 0xB692CF0B, 0x643DBDF1, 0xBE9BC500, 0x6830B3FE, 0x00000000, 0x00000000, 0x00000000, 0x00000000, 0x00000000, 0x00000000, 0x00000000, 0x00000000, 0x00000000, 0x00000000, 0x00000000, 0x00000000, 0x00000000, 0x00000000, 0x00000000, 0x00000000, 0x00000000, 0x00000000, 0x00000000, 0x00000000, 0x00000000, 0x00000000, 0x00000000, 0x00000000, 0x00000000, 0x00000000, 0x00000000, 0x00000000, 0x00000000, 0x00000000, 0x00000000, 0x00000000] := by decide +kernel
  have h3 : expandRot 12 4 3 [0x00010203, 0x04050607, 0x08090A0B, 0x0C0D0E0F, 0xD6AA74FD, 0xD2AF72FA, 0xDAA678F1, 0xD6AB76FE, 0xB692CF0B, 0x643DBDF1, 0xBE9BC500, 0x6830B3FE, 0x00000000, 0x00000000, 0x00000000, 0x00000000, 0x00000000, 0x00000000, 0x00000000, 0x00000000, 0x00000000, 0x00000000, 0x00000000, 0x00000000, 0x00000000, 0x00000000, 0x00000000, 0x00000000, 0x00000000, 0x00000000, 0x00000000, 0x00000000, 0x00000000, 0x00000000, 0x00000000, 0x00000000, 0x00000000, 0x00000000, 0x00000000, 0x00000000, 0x00000000, 0x00000000, 0x00000000, 0x00000000] = .ok [0x00010203, 0x04050607, 0x08090A0B, 0x0C0D0E0F, 0xD6AA74FD, 0xD2AF72FA, 0xDAA678F1, 0xD6AB76FE, 0xB692CF0B, 0x643DBDF1, 0xBE9BC500, 0x6830B3FE, 0xB6FF744E, 0xD2C2C9BF, 0x6C590CBF, 0x0469BF41, 0x00000000, 0x00000000, 0x00000000, 0x00000000, 0x00000000, 0x00000000, 0x00000000, 0x00000000, 0x00000000, 0x00000000, 0x00000000, 0x00000000, 0x00000000, 0x00000000, 0x00000000, 0x00000000, 0x00000000, 0x00000000, 0x00000000, 0x00000000, 0x00000000, 0x00000000, 0x00000000, 0x00000000, 0x00000000, 0x00000000, 0x00000000, 0x00000000] := by decide +kernel
  have h4 : expandRot 16 4 4 [0x00010203, 0x04050607, 0x08090A0B, 0x0C0D0E0F, 0xD6AA74FD, 0xD2AF72FA, 0xDAA678F1, 0xD6AB76FE, 0xB692CF0B, 0x643DBDF1, 0xBE9BC500, 0x6830B3FE, 0xB6FF744E, 0xD2C2C9BF, 0x6C590CBF, 0x0469BF41, 0x00000000, 0x00000000, 0x00000000, 0x00000000, 0x00000000, 0x00000000, 0x00000000, 0x00000000, 0x00000000, 0x00000000, 0x00000000, 0x00000000, 0x00000000, 0x00000000, 0x00000000, 0x00000000, 0x00000000, 0x00000000, 0x00000000, 0x00000000, 0x00000000, 0x00000000, 0x00000000, 0x00000000, 0x00000000, 0x00000000, 0x00000000, 0x00000000] = .ok [0x00010203, 0x04050607, 0x08090A0B, 0x0C0D0E0F, 0xD6AA74FD, 0xD2AF72FA, 0xDAA678F1, 0xD6AB76FE, 0xB692CF0B, 0x643DBDF1, 0xBE9BC500, 0x6830B3FE, 0xB6FF744E, 0xD2C2C9BF, 0x6C590CBF, 0x0469BF41, 0x47F7F7BC, 0x95353E03, 0xF96C32BC, 0xFD058DFD, 0x00000000, 0x00000000, 0x00000000, 0x00000000, 0x00000000, 0x00000000, 0x00000000, 0x00000000, 0x00000000, 0x00000000, 0x00000000, 0x00000000, 0x00000000, 0x00000000, 0x00000000, 0x00000000, 0x00000000, 0x00000000, 0x00000000, 0x00000000, 0x00000000, 0x00000000, 0x00000000, 0x00000000] := by decide +kernel
  have h5 : expandRot 20 4 5 [0x00010203, 0x04050607, 0x08090A0B, 0x0C0D0E0F, 0xD6AA74FD, 0xD2AF72FA, 0xDAA678F1, 0xD6AB76FE, 0xB692CF0B, 0x643DBDF1, 0xBE9BC500, 0x6830B3FE, 0xB6FF744E, 0xD2C2C9BF, 0x6C590CBF, 0x0469BF41, 0x47F7F7BC, 0x95353E03, 0xF96C32BC, 0xFD058DFD, 0x00000000, 0x00000000, 0x00000000, 0x00000000, 0x00000000, 0x00000000, 0x00000000, 0x00000000, 0x00000000, 0x00000000, 0x00000000, 0x00000000, 0x00000000, 0x00000000, 0x00000000, 0x00000000, 0x00000000, 0x00000000, 0x00000000, 0x00000000, 0x00000000, 0x00000000, 0x00000000, 0x00000000] = .ok [0x00010203, 0x04050607, 0x08090A0B, 0x0C0D0E0F, 0xD6AA74FD, 0xD2AF72FA, 0xDAA678F1, 0xD6AB76FE, 0xB692CF0B, 0x643DBDF1, 0xBE9BC500, 0x6830B3FE, 0xB6FF744E, 0xD2C2C9BF, 0x6C590CBF, 0x0469BF41, 0x47F7F7BC, 0x95353E03, 0xF96C32BC, 0xFD058DFD, 0x3CAAA3E8, 0xA99F9DEB, 0x50F3AF57, 0xADF622AA, 0x00000000, 0x00000000, 0x00000000, 0x00000000, 0x00000000, 0x00000000, 0x00000000, 0x00000000, 0x00000000, 0x00000000, 0x00000000, 0x00000000, 0x00000000, 0x00000000, 0x00000000, 0x00000000, 0x00000000, 0x00000000, 0x00000000, 0x00000000] := by decide +kernel
  have h6 : expandRot 24 4 6 [0x00010203, 0x04050607, 0x08090A0B, 0x0C0D0E0F, 0xD6AA74FD, 0xD2AF72FA, 0xDAA678F1, 0xD6AB76FE, 0xB692CF0B, 0x643DBDF1, 0xBE9BC500, 0x6830B3FE, 0xB6FF744E, 0xD2C2C9BF, 0x6C590CBF, 0x0469BF41, 0x47F7F7BC, 0x95353E03, 0xF96C32BC, 0xFD058DFD, 0x3CAAA3E8, 0xA99F9DEB, 0x50F3AF57, 0xADF622AA, 0x00000000, 0x00000000, 0x00000000, 0x00000000, 0x00000000, 0x00000000, 0x00000000, 0x00000000, 0x00000000, 0x00000000, 0x00000000, 0x00000000, 0x00000000, 0x00000000, 0x00000000, 0x00000000, 0x00000000, 0x00000000, 0x00000000, 0x00000000] = .ok [0x00010203, 0x04050607, 0x08090A0B, 0x0C0D0E0F, 0xD6AA74FD, 0xD2AF72FA, 0xDAA678F1, 0xD6AB76FE, 0xB692CF0B, 0x643DBDF1, 0xBE9BC500, 0x6830B3FE, 0xB6FF744E, 0xD2C2C9BF, 0x6C590CBF, 0x0469BF41, 0x47F7F7BC, 0x95353E03, 0xF96C32BC, 0xFD058DFD, 0x3CAAA3E8, 0xA99F9DEB, 0x50F3AF57, 0xADF622AA, 0x5E390F7D, 0xF7A69296, 0xA7553DC1, 0x0AA31F6B, 0x00000000, 0x00000000, 0x00000000, 0x00000000, 0x00000000, 0x00000000, 0x00000000, 0x00000000, 0x00000000, 0x00000000, 0x00000000, 0x00000000, 0x00000000, 0x00000000, 0x00000000, 0x00000000] := by decide +kernel
  have h7 : expandRot 28 4 7 [0x00010203, 0x04050607, 0x08090A0B, 0x0C0D0E0F, 0xD6AA74FD, 0xD2AF72FA, 0xDAA678F1, 0xD6AB76FE, 0xB692CF0B, 0x643DBDF1, 0xBE9BC500, 0x6830B3FE, 0xB6FF744E, 0xD2C2C9BF, 0x6C590CBF, 0x0469BF41, 0x47F7F7BC, 0x95353E03, 0xF96C32BC, 0xFD058DFD, 0x3CAAA3E8, 0xA99F9DEB, 0x50F3AF57, 0xADF622AA, 0x5E390F7D, 0xF7A69296, 0xA7553DC1, 0x0AA31F6B, 0x00000000, 0x00000000, 0x00000000, 0x00000000, 0x00000000, 0x00000000, 0x00000000, 0x00000000, 0x00000000, 0x00000000, 0x00000000, 0x00000000, 0x00000000, 0x00000000, 0x00000000, 0x00000000] = .ok [0x00010203, 0x04050607, 0x08090A0B, 0x0C0D0E0F, 0xD6AA74FD, 0xD2AF72FA, 0xDAA678F1, 0xD6AB76FE, 0xB692CF0B, 0x643DBDF1, 0xBE9BC500, 0x6830B3FE, 0xB6FF744E, 0xD2C2C9BF, 0x6C590CBF, 0x0469BF41, 0x47F7F7BC, 0x95353E03, 0xF96C32BC, 0xFD058DFD, 0x3CAAA3E8, 0xA99F9DEB, 0x50F3AF57, 0xADF622AA, 0x5E390F7D, 0xF7A69296, 0xA7553DC1, 0x0AA31F6B, 0x14F9701A, 0xE35FE28C, 0x440ADF4D, 0x4EA9C026, 0x00000000, 0x00000000, 0x00000000, 0x00000000, 0x00000000, 0x00000000, 0x00000000, 0x00000000, 0x00000000, 0x00000000, 0x00000000, 0x00000000] := by decide +kernel
  have h8 : expandRot 32 4 8 [0x00010203, 0x04050607, 0x08090A0B, 0x0C0D0E0F, 0xD6AA74FD, 0xD2AF72FA, 0xDAA678F1, 0xD6AB76FE, 0xB692CF0B, 0x643DBDF1, 0xBE9BC500, 0x6830B3FE, 0xB6FF744E, 0xD2C2C9BF, 0x6C590CBF, 0x0469BF41, 0x47F7F7BC, 0x95353E03, 0xF96C32BC, 0xFD058DFD, 0x3CAAA3E8, 0xA99F9DEB, 0x50F3AF57, 0xADF622AA, 0x5E390F7D, 0xF7A69296, 0xA7553DC1, 0x0AA31F6B, 0x14F9701A, 0xE35FE28C, 0x440ADF4D, 0x4EA9C026, 0x00000000, 0x00000000, 0x00000000, 0x00000000, 0x00000000, 0x00000000, 0x00000000, 0x00000000, 0x00000000, 0x00000000, 0x00000000, 0x00000000] = .ok [0x00010203, 0x04050607, 0x08090A0B, 0x0C0D0E0F, 0xD6AA74FD, 0xD2AF72FA, 0xDAA678F1, 0xD6AB76FE, 0xB692CF0B, 0x643DBDF1, 0xBE9BC500, 0x6830B3FE, 0xB6FF744E, 0xD2C2C9BF, 0x6C590CBF, 0x0469BF41, 0x47F7F7BC, 0x95353E03, 0xF96C32BC, 0xFD058DFD, 0x3CAAA3E8, 0xA99F9DEB, 0x50F3AF57, 0xADF622AA, 0x5E390F7D, 0xF7A69296, 0xA7553DC1, 0x0AA31F6B, 0x14F9701A, 0xE35FE28C, 0x440ADF4D, 0x4EA9C026, 0x47438735, 0xA41C65B9, 0xE016BAF4, 0xAEBF7AD2, 0x00000000, 0x00000000, 0x00000000, 0x00000000, 0x00000000, 0x00000000, 0x00000000, 0x00000000] := by decide +kernel
  have h9 : expandRot 36 4 9 [0x00010203, 0x04050607, 0x08090A0B, 0x0C0D0E0F, 0xD6AA74FD, 0xD2AF72FA, 0xDAA678F1, 0xD6AB76FE, 0xB692CF0B, 0x643DBDF1, 0xBE9BC500, 0x6830B3FE, 0xB6FF744E, 0xD2C2C9BF, 0x6C590CBF, 0x0469BF41, 0x47F7F7BC, 0x95353E03, 0xF96C32BC, 0xFD058DFD, 0x3CAAA3E8, 0xA99F9DEB, 0x50F3AF57, 0xADF622AA, 0x5E390F7D, 0xF7A69296, 0xA7553DC1, 0x0AA31F6B, 0x14F9701A, 0xE35FE28C, 0x440ADF4D, 0x4EA9C026, 0x47438735, 0xA41C65B9, 0xE016BAF4, 0xAEBF7AD2, 0x00000000, 0x00000000, 0x00000000, 0x00000000, 0x00000000, 0x00000000, 0x00000000, 0x00000000] = .ok [0x00010203, 0x04050607, 0x08090A0B, 0x0C0D0E0F, 0xD6AA74FD, 0xD2AF72FA, 0xDAA678F1, 0xD6AB76FE, 0xB692CF0B, 0x643DBDF1, 0xBE9BC500, 0x6830B3FE, 0xB6FF744E, 0xD2C2C9BF, 0x6C590CBF, 0x0469BF41, 0x47F7F7BC, 0x95353E03, 0xF96C32BC, 0xFD058DFD, 0x3CAAA3E8, 0xA99F9DEB, 0x50F3AF57, 0xADF622AA, 0x5E390F7D, 0xF7A69296, 0xA7553DC1, 0x0AA31F6B, 0x14F9701A, 0xE35FE28C, 0x440ADF4D, 0x4EA9C026, 0x47438735, 0xA41C65B9, 0xE016BAF4, 0xAEBF7AD2, 0x549932D1, 0xF0855768, 0x1093ED9C, 0xBE2C974E, 0x00000000, 0x00000000, 0x00000000, 0x00000000] := by decide +kernel
  have h10 : expandRot 40 4 10 [0x00010203, 0x04050607, 0x08090A0B, 0x0C0D0E0F, 0xD6AA74FD, 0xD2AF72FA, 0xDAA678F1, 0xD6AB76FE, 0xB692CF0B, 0x643DBDF1, 0xBE9BC500, 0x6830B3FE, 0xB6FF744E, 0xD2C2C9BF, 0x6C590CBF, 0x0469BF41, 0x47F7F7BC, 0x95353E03, 0xF96C32BC, 0xFD058DFD, 0x3CAAA3E8, 0xA99F9DEB, 0x50F3AF57, 0xADF622AA, 0x5E390F7D, 0xF7A69296, 0xA7553DC1, 0x0AA31F6B, 0x14F9701A, 0xE35FE28C, 0x440ADF4D, 0x4EA9C026, 0x47438735, 0xA41C65B9, 0xE016BAF4, 0xAEBF7AD2, 0x549932D1, 0xF0855768, 0x1093ED9C, 0xBE2C974E, 0x00000000, 0x00000000, 0x00000000, 0x00000000] = .ok [0x00010203, 0x04050607, 0x08090A0B, 0x0C0D0E0F, 0xD6AA74FD, 0xD2AF72FA, 0xDAA678F1, 0xD6AB76FE, 0xB692CF0B, 0x643DBDF1, 0xBE9BC500, 0x6830B3FE, 0xB6FF744E, 0xD2C2C9BF, 0x6C590CBF, 0x0469BF41, 0x47F7F7BC, 0x95353E03, 0xF96C32BC, 0xFD058DFD, 0x3CAAA3E8, 0xA99F9DEB, 0x50F3AF57, 0xADF622AA, 0x5E390F7D, 0xF7A69296, 0xA7553DC1, 0x0AA31F6B, 0x14F9701A, 0xE35FE28C, 0x440ADF4D, 0x4EA9C026, 0x47438735, 0xA41C65B9, 0xE016BAF4, 0xAEBF7AD2, 0x549932D1, 0xF0855768, 0x1093ED9C, 0xBE2C974E, 0x13111D7F, 0xE3944A17, 0xF307A78B, 0x4D2B30C5] := by decide +kernel
  rw [standardExpand]
  simp only [show fipsKey16.length / 4 = 4 from rfl, show List.replicate (4 * (4 + 6 + 1)) (0 : Word) = [0x00000000, 0x00000000, 0x00000000, 0x00000000, 0x00000000, 0x00000000, 0x00000000, 0x00000000, 0x00000000, 0x00000000, 0x00000000, 0x00000000, 0x00000000, 0x00000000, 0x00000000, 0x00000000, 0x00000000, 0x00000000, 0x00000000, 0x00000000, 0x00000000, 0x00000000, 0x00000000, 0x00000000, 0x00000000, 0x00000000, 0x00000000, 0x00000000, 0x00000000, 0x00000000, 0x00000000, 0x00000000, 0x00000000, 0x00000000, 0x00000000, 0x00000000, 0x00000000, 0x00000000, 0x00000000, 0x00000000, 0x00000000, 0x00000000, 0x00000000, 0x00000000] from rfl]
  rw [if_neg (by decide), if_neg (by decide)]
  rw [h0, ok_bind, h1, ok_bind, h2, ok_bind, h3, ok_bind, h4, ok_bind, h5, ok_bind, h6, ok_bind, h7, ok_bind, h8, ok_bind, h9, ok_bind, h10, ok_bind]
  rfl

theorem fips_encrypt_16 : encrypt128 fipsRk16 10 fipsPlain 0 (List.replicate 16 0) 0 = .ok [0x69, 0xC4, 0xE0, 0xD8, 0x6A, 0x7B, 0x04, 0x30, 0xD8, 0xCD, 0xB7, 0x80, 0x70, 0xB4, 0xC5, 0x5A] := by
  have e0 : keyAddition fipsRk16 0 fipsPlain = .ok [0x00, 0x10, 0x20, 0x30, 0x40, 0x50, 0x60, 0x70, 0x80, 0x90, 0xA0, 0xB0, 0xC0, 0xD0, 0xE0, 0xF0] := by decide +kernel
  have e1 : substitution [0x00, 0x10, 0x20, 0x30, 0x40, 0x50, 0x60, 0x70, 0x80, 0x90, 0xA0, 0xB0, 0xC0, 0xD0, 0xE0, 0xF0] = .ok [0x63, 0xCA, 0xB7, 0x04, 0x09, 0x53, 0xD0, 0x51, 0xCD, 0x60, 0xE0, 0xE7, 0xBA, 0x70, 0xE1, 0x8C] := by decide +kernel
  have e2 : runOps shiftRows128Ops none ([0x63, 0xCA, 0xB7, 0x04, 0x09, 0x53, 0xD0, 0x51, 0xCD, 0x60, 0xE0, 0xE7, 0xBA, 0x70, 0xE1, 0x8C] : List Byte) = .ok [0x63, 0x53, 0xE0, 0x8C, 0x09, 0x60, 0xE1, 0x04, 0xCD, 0x70, 0xB7, 0x51, 0xBA, 0xCA, 0xD0, 0xE7] := by decide +kernel
  have e3 : mixColumns [0x63, 0x53, 0xE0, 0x8C, 0x09, 0x60, 0xE1, 0x04, 0xCD, 0x70, 0xB7, 0x51, 0xBA, 0xCA, 0xD0, 0xE7] = .ok [0x5F, 0x72, 0x64, 0x15, 0x57, 0xF5, 0xBC, 0x92, 0xF7, 0xBE, 0x3B, 0x29, 0x1D, 0xB9, 0xF9, 0x1A] := by decide +kernel
  have e4 : keyAddition fipsRk16 (1 * (16 / 4)) [0x5F, 0x72, 0x64, 0x15, 0x57, 0xF5, 0xBC, 0x92, 0xF7, 0xBE, 0x3B, 0x29, 0x1D, 0xB9, 0xF9, 0x1A] = .ok [0x89, 0xD8, 0x10, 0xE8, 0x85, 0x5A, 0xCE, 0x68, 0x2D, 0x18, 0x43, 0xD8, 0xCB, 0x12, 0x8F, 0xE4] := by decide +kernel
  have e5 : substitution [0x89, 0xD8, 0x10, 0xE8, 0x85, 0x5A, 0xCE, 0x68, 0x2D, 0x18, 0x43, 0xD8, 0xCB, 0x12, 0x8F, 0xE4] = .ok [0xA7, 0x61, 0xCA, 0x9B, 0x97, 0xBE, 0x8B, 0x45, 0xD8, 0xAD, 0x1A, 0x61, 0x1F, 0xC9, 0x73, 0x69] := by decide +kernel
  have e6 : runOps shiftRows128Ops none ([0xA7, 0x61, 0xCA, 0x9B, 0x97, 0xBE, 0x8B, 0x45, 0xD8, 0xAD, 0x1A, 0x61, 0x1F, 0xC9, 0x73, 0x69] : List Byte) = .ok [0xA7, 0xBE, 0x1A, 0x69, 0x97, 0xAD, 0x73, 0x9B, 0xD8, 0xC9, 0xCA, 0x45, 0x1F, 0x61, 0x8B, 0x61] := by decide +kernel
  have e7 : mixColumns [0xA7, 0xBE, 0x1A, 0x69, 0x97, 0xAD, 0x73, 0x9B, 0xD8, 0xC9, 0xCA, 0x45, 0x1F, 0x61, 0x8B, 0x61] = .ok [0xFF, 0x87, 0x96, 0x84, 0x31, 0xD8, 0x6A, 0x51, 0x64, 0x51, 0x51, 0xFA, 0x77, 0x3A, 0xD0, 0x09] := by decide +kernel
  have e8 : keyAddition fipsRk16 (2 * (16 / 4)) [0xFF, 0x87, 0x96, 0x84, 0x31, 0xD8, 0x6A, 0x51, 0x64, 0x51, 0x51, 0xFA, 0x77, 0x3A, 0xD0, 0x09] = .ok [0x49, 0x15, 0x59, 0x8F, 0x55, 0xE5, 0xD7, 0xA0, 0xDA, 0xCA, 0x94, 0xFA, 0x1F, 0x0A, 0x63, 0xF7] := by decide +kernel
  have e9 : substitution [0x49, 0x15, 0x59, 0x8F, 0x55, 0xE5, 0xD7, 0xA0, 0xDA, 0xCA, 0x94, 0xFA, 0x1F, 0x0A, 0x63, 0xF7] = .ok [0x3B, 0x59, 0xCB, 0x73, 0xFC, 0xD9, 0x0E, 0xE0, 0x57, 0x74, 0x22, 0x2D, 0xC0, 0x67, 0xFB, 0x68] := by decide +kernel
  have e10 : runOps shiftRows128Ops none ([0x3B, 0x59, 0xCB, 0x73, 0xFC, 0xD9, 0x0E, 0xE0, 0x57, 0x74, 0x22, 0x2D, 0xC0, 0x67, 0xFB, 0x68] : List Byte) = .ok [0x3B, 0xD9, 0x22, 0x68, 0xFC, 0x74, 0xFB, 0x73, 0x57, 0x67, 0xCB, 0xE0, 0xC0, 0x59, 0x0E, 0x2D] := by decide +kernel
  have e11 : mixColumns [0x3B, 0xD9, 0x22, 0x68, 0xFC, 0x74, 0xFB, 0x73, 0x57, 0x67, 0xCB, 0xE0, 0xC0, 0x59, 0x0E, 0x2D] = .ok [0x4C, 0x9C, 0x1E, 0x66, 0xF7, 0x71, 0xF0, 0x76, 0x2C, 0x3F, 0x86, 0x8E, 0x53, 0x4D, 0xF2, 0x56] := by decide +kernel
  have e12 : keyAddition fipsRk16 (3 * (16 / 4)) [0x4C, 0x9C, 0x1E, 0x66, 0xF7, 0x71, 0xF0, 0x76, 0x2C, 0x3F, 0x86, 0x8E, 0x53, 0x4D, 0xF2, 0x56] = .ok [0xFA, 0x63, 0x6A, 0x28, 0x25, 0xB3, 0x39, 0xC9, 0x40, 0x66, 0x8A, 0x31, 0x57, 0x24, 0x4D, 0x17] := by decide +kernel
  have e13 : substitution [0xFA, 0x63, 0x6A, 0x28, 0x25, 0xB3, 0x39, 0xC9, 0x40, 0x66, 0x8A, 0x31, 0x57, 0x24, 0x4D, 0x17] = .ok [0x2D, 0xFB, 0x02, 0x34, 0x3F, 0x6D, 0x12, 0xDD, 0x09, 0x33, 0x7E, 0xC7, 0x5B, 0x36, 0xE3, 0xF0] := by decide +kernel
  have e14 : runOps shiftRows128Ops none ([0x2D, 0xFB, 0x02, 0x34, 0x3F, 0x6D, 0x12, 0xDD, 0x09, 0x33, 0x7E, 0xC7, 0x5B, 0x36, 0xE3, 0xF0] : List Byte) = .ok [0x2D, 0x6D, 0x7E, 0xF0, 0x3F, 0x33, 0xE3, 0x34, 0x09, 0x36, 0x02, 0xDD, 0x5B, 0xFB, 0x12, 0xC7] := by decide +kernel
  have e15 : mixColumns [0x2D, 0x6D, 0x7E, 0xF0, 0x3F, 0x33, 0xE3, 0x34, 0x09, 0x36, 0x02, 0xDD, 0x5B, 0xFB, 0x12, 0xC7] = .ok [0x63, 0x85, 0xB7, 0x9F, 0xFC, 0x53, 0x8D, 0xF9, 0x97, 0xBE, 0x47, 0x8E, 0x75, 0x47, 0xD6, 0x91] := by decide +kernel
  have e16 : keyAddition fipsRk16 (4 * (16 / 4)) [0x63, 0x85, 0xB7, 0x9F, 0xFC, 0x53, 0x8D, 0xF9, 0x97, 0xBE, 0x47, 0x8E, 0x75, 0x47, 0xD6, 0x91] = .ok [0x24, 0x72, 0x40, 0x23, 0x69, 0x66, 0xB3, 0xFA, 0x6E, 0xD2, 0x75, 0x32, 0x88, 0x42, 0x5B, 0x6C] := by decide +kernel
  have e17 : substitution [0x24, 0x72, 0x40, 0x23, 0x69, 0x66, 0xB3, 0xFA, 0x6E, 0xD2, 0x75, 0x32, 0x88, 0x42, 0x5B, 0x6C] = .ok [0x36, 0x40, 0x09, 0x26, 0xF9, 0x33, 0x6D, 0x2D, 0x9F, 0xB5, 0x9D, 0x23, 0xC4, 0x2C, 0x39, 0x50] := by decide +kernel
  have e18 : runOps shiftRows128Ops none ([0x36, 0x40, 0x09, 0x26, 0xF9, 0x33, 0x6D, 0x2D, 0x9F, 0xB5, 0x9D, 0x23, 0xC4, 0x2C, 0x39, 0x50] : List Byte) = .ok [0x36, 0x33, 0x9D, 0x50, 0xF9, 0xB5, 0x39, 0x26, 0x9F, 0x2C, 0x09, 0x2D, 0xC4, 0x40, 0x6D, 0x23] := by decide +kernel
  have e19 : mixColumns [0x36, 0x33, 0x9D, 0x50, 0xF9, 0xB5, 0x39, 0x26, 0x9F, 0x2C, 0x09, 0x2D, 0xC4, 0x40, 0x6D, 0x23] = .ok [0xF4, 0xBC, 0xD4, 0x54, 0x32, 0xE5, 0x54, 0xD0, 0x75, 0xF1, 0xD6, 0xC5, 0x1D, 0xD0, 0x3B, 0x3C] := by decide +kernel
  have e20 : keyAddition fipsRk16 (5 * (16 / 4)) [0xF4, 0xBC, 0xD4, 0x54, 0x32, 0xE5, 0x54, 0xD0, 0x75, 0xF1, 0xD6, 0xC5, 0x1D, 0xD0, 0x3B, 0x3C] = .ok [0xC8, 0x16, 0x77, 0xBC, 0x9B, 0x7A, 0xC9, 0x3B, 0x25, 0x02, 0x79, 0x92, 0xB0, 0x26, 0x19, 0x96] := by decide +kernel
  have e21 : substitution [0xC8, 0x16, 0x77, 0xBC, 0x9B, 0x7A, 0xC9, 0x3B, 0x25, 0x02, 0x79, 0x92, 0xB0, 0x26, 0x19, 0x96] = .ok [0xE8, 0x47, 0xF5, 0x65, 0x14, 0xDA, 0xDD, 0xE2, 0x3F, 0x77, 0xB6, 0x4F, 0xE7, 0xF7, 0xD4, 0x90] := by decide +kernel
  have e22 : runOps shiftRows128Ops none ([0xE8, 0x47, 0xF5, 0x65, 0x14, 0xDA, 0xDD, 0xE2, 0x3F, 0x77, 0xB6, 0x4F, 0xE7, 0xF7, 0xD4, 0x90] : List Byte) = .ok [0xE8, 0xDA, 0xB6, 0x90, 0x14, 0x77, 0xD4, 0x65, 0x3F, 0xF7, 0xF5, 0xE2, 0xE7, 0x47, 0xDD, 0x4F] := by decide +kernel
  have e23 : mixColumns [0xE8, 0xDA, 0xB6, 0x90, 0x14, 0x77, 0xD4, 0x65, 0x3F, 0xF7, 0xF5, 0xE2, 0xE7, 0x47, 0xDD, 0x4F] = .ok [0x98, 0x16, 0xEE, 0x74, 0x00, 0xF8, 0x7F, 0x55, 0x6B, 0x2C, 0x04, 0x9C, 0x8E, 0x5A, 0xD0, 0x36] := by decide +kernel
  have e24 : keyAddition fipsRk16 (6 * (16 / 4)) [0x98, 0x16, 0xEE, 0x74, 0x00, 0xF8, 0x7F, 0x55, 0x6B, 0x2C, 0x04, 0x9C, 0x8E, 0x5A, 0xD0, 0x36] = .ok [0xC6, 0x2F, 0xE1, 0x09, 0xF7, 0x5E, 0xED, 0xC3, 0xCC, 0x79, 0x39, 0x5D, 0x84, 0xF9, 0xCF, 0x5D] := by decide +kernel
  have e25 : substitution [0xC6, 0x2F, 0xE1, 0x09, 0xF7, 0x5E, 0xED, 0xC3, 0xCC, 0x79, 0x39, 0x5D, 0x84, 0xF9, 0xCF, 0x5D] = .ok [0xB4, 0x15, 0xF8, 0x01, 0x68, 0x58, 0x55, 0x2E, 0x4B, 0xB6, 0x12, 0x4C, 0x5F, 0x99, 0x8A, 0x4C] := by decide +kernel
  have e26 : runOps shiftRows128Ops none ([0xB4, 0x15, 0xF8, 0x01, 0x68, 0x58, 0x55, 0x2E, 0x4B, 0xB6, 0x12, 0x4C, 0x5F, 0x99, 0x8A, 0x4C] : List Byte) = .ok [0xB4, 0x58, 0x12, 0x4C, 0x68, 0xB6, 0x8A, 0x01, 0x4B, 0x99, 0xF8, 0x2E, 0x5F, 0x15, 0x55, 0x4C] := by decide +kernel
  have e27 : mixColumns [0xB4, 0x58, 0x12, 0x4C, 0x68, 0xB6, 0x8A, 0x01, 0x4B, 0x99, 0xF8, 0x2E, 0x5F, 0x15, 0x55, 0x4C] = .ok [0xC5, 0x7E, 0x1C, 0x15, 0x9A, 0x9B, 0xD2, 0x86, 0xF0, 0x5F, 0x4B, 0xE0, 0x98, 0xC6, 0x34, 0x39] := by decide +kernel
  have e28 : keyAddition fipsRk16 (7 * (16 / 4)) [0xC5, 0x7E, 0x1C, 0x15, 0x9A, 0x9B, 0xD2, 0x86, 0xF0, 0x5F, 0x4B, 0xE0, 0x98, 0xC6, 0x34, 0x39] = .ok [0xD1, 0x87, 0x6C, 0x0F, 0x79, 0xC4, 0x30, 0x0A, 0xB4, 0x55, 0x94, 0xAD, 0xD6, 0x6F, 0xF4, 0x1F] := by decide +kernel
  have e29 : substitution [0xD1, 0x87, 0x6C, 0x0F, 0x79, 0xC4, 0x30, 0x0A, 0xB4, 0x55, 0x94, 0xAD, 0xD6, 0x6F, 0xF4, 0x1F] = .ok [0x3E, 0x17, 0x50, 0x76, 0xB6, 0x1C, 0x04, 0x67, 0x8D, 0xFC, 0x22, 0x95, 0xF6, 0xA8, 0xBF, 0xC0] := by decide +kernel
  have e30 : runOps shiftRows128Ops none ([0x3E, 0x17, 0x50, 0x76, 0xB6, 0x1C, 0x04, 0x67, 0x8D, 0xFC, 0x22, 0x95, 0xF6, 0xA8, 0xBF, 0xC0] : List Byte) = .ok [0x3E, 0x1C, 0x22, 0xC0, 0xB6, 0xFC, 0xBF, 0x76, 0x8D, 0xA8, 0x50, 0x67, 0xF6, 0x17, 0x04, 0x95] := by decide +kernel
  have e31 : mixColumns [0x3E, 0x1C, 0x22, 0xC0, 0xB6, 0xFC, 0xBF, 0x76, 0x8D, 0xA8, 0x50, 0x67, 0xF6, 0x17, 0x04, 0x95] = .ok [0xBA, 0xA0, 0x3D, 0xE7, 0xA1, 0xF9, 0xB5, 0x6E, 0xD5, 0x51, 0x2C, 0xBA, 0x5F, 0x41, 0x4D, 0x23] := by decide +kernel
  have e32 : keyAddition fipsRk16 (8 * (16 / 4)) [0xBA, 0xA0, 0x3D, 0xE7, 0xA1, 0xF9, 0xB5, 0x6E, 0xD5, 0x51, 0x2C, 0xBA, 0x5F, 0x41, 0x4D, 0x23] = .ok [0xFD, 0xE3, 0xBA, 0xD2, 0x05, 0xE5, 0xD0, 0xD7, 0x35, 0x47, 0x96, 0x4E, 0xF1, 0xFE, 0x37, 0xF1] := by decide +kernel
  have e33 : substitution [0xFD, 0xE3, 0xBA, 0xD2, 0x05, 0xE5, 0xD0, 0xD7, 0x35, 0x47, 0x96, 0x4E, 0xF1, 0xFE, 0x37, 0xF1] = .ok [0x54, 0x11, 0xF4, 0xB5, 0x6B, 0xD9, 0x70, 0x0E, 0x96, 0xA0, 0x90, 0x2F, 0xA1, 0xBB, 0x9A, 0xA1] := by decide +kernel
  have e34 : runOps shiftRows128Ops none ([0x54, 0x11, 0xF4, 0xB5, 0x6B, 0xD9, 0x70, 0x0E, 0x96, 0xA0, 0x90, 0x2F, 0xA1, 0xBB, 0x9A, 0xA1] : List Byte) = .ok [0x54, 0xD9, 0x90, 0xA1, 0x6B, 0xA0, 0x9A, 0xB5, 0x96, 0xBB, 0xF4, 0x0E, 0xA1, 0x11, 0x70, 0x2F] := by decide +kernel
  have e35 : mixColumns [0x54, 0xD9, 0x90, 0xA1, 0x6B, 0xA0, 0x9A, 0xB5, 0x96, 0xBB, 0xF4, 0x0E, 0xA1, 0x11, 0x70, 0x2F] = .ok [0xE9, 0xF7, 0x4E, 0xEC, 0x02, 0x30, 0x20, 0xF6, 0x1B, 0xF2, 0xCC, 0xF2, 0x35, 0x3C, 0x21, 0xC7] := by decide +kernel
  have e36 : keyAddition fipsRk16 (9 * (16 / 4)) [0xE9, 0xF7, 0x4E, 0xEC, 0x02, 0x30, 0x20, 0xF6, 0x1B, 0xF2, 0xCC, 0xF2, 0x35, 0x3C, 0x21, 0xC7] = .ok [0xBD, 0x6E, 0x7C, 0x3D, 0xF2, 0xB5, 0x77, 0x9E, 0x0B, 0x61, 0x21, 0x6E, 0x8B, 0x10, 0xB6, 0x89] := by decide +kernel
  have e37 : substitution [0xBD, 0x6E, 0x7C, 0x3D, 0xF2, 0xB5, 0x77, 0x9E, 0x0B, 0x61, 0x21, 0x6E, 0x8B, 0x10, 0xB6, 0x89] = .ok [0x7A, 0x9F, 0x10, 0x27, 0x89, 0xD5, 0xF5, 0x0B, 0x2B, 0xEF, 0xFD, 0x9F, 0x3D, 0xCA, 0x4E, 0xA7] := by decide +kernel
  have e38 : runOps shiftRows128Ops none ([0x7A, 0x9F, 0x10, 0x27, 0x89, 0xD5, 0xF5, 0x0B, 0x2B, 0xEF, 0xFD, 0x9F, 0x3D, 0xCA, 0x4E, 0xA7] : List Byte) = .ok [0x7A, 0xD5, 0xFD, 0xA7, 0x89, 0xEF, 0x4E, 0x27, 0x2B, 0xCA, 0x10, 0x0B, 0x3D, 0x9F, 0xF5, 0x9F] := by decide +kernel
  have e39 : keyAddition fipsRk16 (10 * (16 / 4)) [0x7A, 0xD5, 0xFD, 0xA7, 0x89, 0xEF, 0x4E, 0x27, 0x2B, 0xCA, 0x10, 0x0B, 0x3D, 0x9F, 0xF5, 0x9F] = .ok [0x69, 0xC4, 0xE0, 0xD8, 0x6A, 0x7B, 0x04, 0x30, 0xD8, 0xCD, 0xB7, 0x80, 0x70, 0xB4, 0xC5, 0x5A] := by decide +kernel
  have e : copy fipsPlain 0 (List.replicate 16 0) 0 16 = .ok fipsPlain := by decide +kernel
  have e' : copy ([0x69, 0xC4, 0xE0, 0xD8, 0x6A, 0x7B, 0x04, 0x30, 0xD8, 0xCD, 0xB7, 0x80, 0x70, 0xB4, 0xC5, 0x5A] : List Byte) 0 (List.replicate 16 0) 0 16 = .ok [0x69, 0xC4, 0xE0, 0xD8, 0x6A, 0x7B, 0x04, 0x30, 0xD8, 0xCD, 0xB7, 0x80, 0x70, 0xB4, 0xC5, 0x5A] := by decide +kernel
  rw [encrypt128, forward, e, ok_bind, e0, ok_bind]
  simp only [show 10 - 1 = 9 from rfl, loopN, Nat.reduceAdd]
  rw [e1, ok_bind]
  rw [e2, ok_bind]
  rw [e3, ok_bind]
  rw [e4, ok_bind]
  rw [e5, ok_bind]
  rw [e6, ok_bind]
  rw [e7, ok_bind]
  rw [e8, ok_bind]
  rw [e9, ok_bind]
  rw [e10, ok_bind]
  rw [e11, ok_bind]
  rw [e12, ok_bind]
  rw [e13, ok_bind]
  rw [e14, ok_bind]
  rw [e15, ok_bind]
  rw [e16, ok_bind]
  rw [e17, ok_bind]
  rw [e18, ok_bind]
  rw [e19, ok_bind]
  rw [e20, ok_bind]
  rw [e21, ok_bind]
  rw [e22, ok_bind]
  rw [e23, ok_bind]
  rw [e24, ok_bind]
  rw [e25, ok_bind]
  rw [e26, ok_bind]
  rw [e27, ok_bind]
  rw [e28, ok_bind]
  rw [e29, ok_bind]
  rw [e30, ok_bind]
  rw [e31, ok_bind]
  rw [e32, ok_bind]
  rw [e33, ok_bind]
  rw [e34, ok_bind]
  rw [e35, ok_bind]
  rw [e36, ok_bind, ok_bind]
  rw [e37, ok_bind]
  rw [e38, ok_bind]
  rw [e39, ok_bind]
  exact e'

/-- Appendix C.1: the reference cipher, hence (C55_encrypt) both builds. -/
theorem fips_c1 : onBytes (Aes.aes fipsKey16) fipsPlain = [0x69, 0xC4, 0xE0, 0xD8, 0x6A, 0x7B, 0x04, 0x30, 0xD8, 0xCD, 0xB7, 0x80, 0x70, 0xB4, 0xC5, 0x5A] :=
  aes_of_run (by decide) fips_expand_16 (by decide) fips_encrypt_16

/-- The 24-byte key 00 01 02 …. -/
def fipsKey24 : List Byte := [0x00, 0x01, 0x02, 0x03, 0x04, 0x05, 0x06, 0x07, 0x08, 0x09, 0x0A, 0x0B, 0x0C, 0x0D, 0x0E, 0x0F, 0x10, 0x11, 0x12, 0x13, 0x14, 0x15, 0x16, 0x17]

def fipsRk24 : List Word := [0x00010203, 0x04050607, 0x08090A0B, 0x0C0D0E0F, 0x10111213, 0x14151617, 0x5846F2F9, 0x5C43F4FE, 0x544AFEF5, 0x5847F0FA, 0x4856E2E9, 0x5C43F4FE, 0x40F949B3, 0x1CBABD4D, 0x48F043B8, 0x10B7B342, 0x58E151AB, 0x04A2A555, 0x7EFFB541, 0x6245080C, 0x2AB54BB4, 0x3A02F8F6, 0x62E3A95D, 0x66410C08, 0xF5018572, 0x97448D7E, 0xBDF1C6CA, 0x87F33E3C, 0xE5109761, 0x83519B69, 0x34157C9E, 0xA351F1E0, 0x1EA0372A, 0x99530916, 0x7C439E77, 0xFF12051E, 0xDD7E0E88, 0x7E2FFF68, 0x608FC842, 0xF9DCC154, 0x859F5F23, 0x7A8D5A3D, 0xC0C02952, 0xBEEFD63A, 0xDE601E78, 0x27BCDF2C, 0xA223800F, 0xD8AEDA32, 0xA4970A33, 0x1A78DC09, 0xC418C271, 0xE3A41D5D]

theorem fips_expand_24 : standardExpand fipsKey24 = .ok (12, fipsRk24) := by
  have h0 : loadKey 6 fipsKey24 [0x00000000, 0x00000000, 0x00000000, 0x00000000, 0x00000000, 0x00000000, 0x00000000, 0x00000000, 0x00000000, 0x00000000, 0x00000000, 0x00000000, 0x00000000, 0x00000000, 0x00000000, 0x00000000, 0x00000000, 0x00000000, 0x00000000, 0x00000000, 0x00000000, 0x00000000, 0x00000000, 0x00000000, 0x00000000, 0x00000000, 0x00000000, 0x00000000, 0x00000000, 0x00000000, 0x00000000, 0x00000000, 0x00000000, 0x00000000, 0x00000000, 0x00000000, 0x00000000, 0x00000000, 0x00000000, 0x00000000, 0x00000000, 0x00000000, 0x00000000, 0x00000000, 0x00000000, 0x00000000, 0x00000000, 0x00000000, 0x00000000, 0x00000000, 0x00000000, 0x00000000] = .ok [0x00010203, 0x04050607, 0x08090A0B, 0x0C0D0E0F, 0x10111213, 0x14151617, 0x00000000, 0x00000000, 0x00000000, 0x00000000, 0x00000000, 0x00000000, 0x00000000, 0x00000000, 0x00000000, 0x00000000, 0x00000000, 0x00000000, 0x00000000, 0x00000000, 0x00000000, 0x00000000, 0x00000000, 0x00000000, 0x00000000, 0x00000000, 0x00000000, 0x00000000, 0x00000000, 0x00000000, 0x00000000, 0x00000000, 0x00000000, 0x00000000, 0x00000000, 0x00000000, 0x00000000, 0x00000000, 0x00000000, 0x00000000, 0x00000000, 0x00000000, 0x00000000, 0x00000000, 0x00000000, 0x00000000, 0x00000000, 0x00000000, 0x00000000, 0x00000000, 0x00000000, 0x00000000] := by decide +kernel
  have h1 : expandRot 6 6 1 [0x00010203, 0x04050607, 0x08090A0B, 0x0C0D0E0F, 0x10111213, 0x14151617, 0x00000000, 0x00000000, 0x00000000, 0x00000000, 0x00000000, 0x00000000, 0x00000000, 0x00000000, 0x00000000, 0x00000000, 0x00000000, 0x00000000, 0x00000000, 0x00000000, 0x00000000, 0x00000000, 0x00000000, 0x00000000, 0x00000000, 0x00000000, 0x00000000, 0x00000000, 0x00000000, 0x00000000, 0x00000000, 0x00000000, 0x00000000, 0x00000000, 0x00000000, 0x00000000, 0x00000000, 0x00000000, 0x00000000, 0x00000000, 0x00000000, 0x00000000, 0x00000000, 0x00000000, 0x00000000, 0x00000000, 0x00000000, 0x00000000, 0x00000000, 0x00000000, 0x00000000, 0x00000000] = .ok [0x00010203, 0x04050607, 0x08090A0B, 0x0C0D0E0F, 0x10111213, 0x14151617, 0x5846F2F9, 0x5C43F4FE, 0x544AFEF5, 0x5847F0FA, 0x00000000, 0x00000000, 0x00000000, 0x00000000, 0x00000000, 0x00000000, 0x00000000, 0x00000000, 0x00000000, 0x00000000, 0x00000000, 0x00000000, 0x00000000, 0x00000000, 0x00000000, 0x00000000, 0x00000000, 0x00000000, 0x00000000, 0x00000000, 0x00000000, 0x00000000, 0x00000000, 0x00000000, 0x00000000, 0x00000000, 0x00000000, 0x00000000, 0x00000000, 0x00000000, 0x00000000, 0x00000000, 0x00000000, 0x00000000, 0x00000000, 0x00000000, 0x00000000, 0x00000000, 0x00000000, 0x00000000, 0x00000000, 0x00000000] := by decide +kernel
  have h2 : chainWord 10 4 [0x00010203, 0x04050607, 0x08090A0B, 0x0C0D0E0F, 0x10111213, 0x14151617, 0x5846F2F9, 0x5C43F4FE, 0x544AFEF5, 0x5847F0FA, 0x00000000, 0x00000000, 0x00000000, 0x00000000, 0x00000000, 0x00000000, 0x00000000, 0x00000000, 0x00000000, 0x00000000, 0x00000000, 0x00000000, 0x00000000, 0x00000000, 0x00000000, 0x00000000, 0x00000000, 0x00000000, 0x00000000, 0x00000000, 0x00000000, 0x00000000, 0x00000000, 0x00000000, 0x00000000, 0x00000000, 0x00000000, 0x00000000, 0x00000000, 0x00000000, 0x00000000, 0x00000000, 0x00000000, 0x00000000, 0x00000000, 0x00000000, 0x00000000, 0x00000000, 0x00000000, 0x00000000, 0x00000000, 0x00000000] = .ok [0x00010203, 0x04050607, 0x08090A0B, 0x0C0D0E0F, 0x10111213, 0x14151617, 0x5846F2F9, 0x5C43F4FE, 0x544AFEF5, 0x5847F0FA, 0x4856E2E9, 0x00000000, 0x00000000, 0x00000000, 0x00000000, 0x00000000, 0x00000000, 0x00000000, 0x00000000, 0x00000000, 0x00000000, 0x00000000, 0x00000000, 0x00000000, 0x00000000, 0x00000000, 0x00000000, 0x00000000, 0x00000000, 0x00000000, 0x00000000, 0x00000000, 0x00000000, 0x00000000, 0x00000000, 0x00000000, 0x00000000, 0x00000000, 0x00000000, 0x00000000, 0x00000000, 0x00000000, 0x00000000, 0x00000000, 0x00000000, 0x00000000, 0x00000000, 0x00000000, 0x00000000, 0x00000000, 0x00000000, 0x00000000] := by decide +kernel
  have h3 : chainWord 11 5 [0x00010203, 0x04050607, 0x08090A0B, 0x0C0D0E0F, 0x10111213, 0x14151617, 0x5846F2F9, 0x5C43F4FE, 0x544AFEF5, 0x5847F0FA, 0x4856E2E9, 0x00000000, 0x00000000, 0x00000000, 0x00000000, 0x00000000, 0x00000000, 0x00000000, 0x00000000, 0x00000000, 0x00000000, 0x00000000, 0x00000000, 0x00000000, 0x00000000, 0x00000000, 0x00000000, 0x00000000, 0x00000000, 0x00000000, 0x00000000, 0x00000000, 0x00000000, 0x00000000, 0x00000000, 0x00000000, 0x00000000, 0x00000000, 0x00000000, 0x00000000, 0x00000000, 0x00000000, 0x00000000, 0x00000000, 0x00000000, 0x00000000, 0x00000000, 0x00000000, 0x00000000, 0x00000000, 0x00000000, 0x00000000] = .ok [0x00010203, 0x04050607, 0x08090A0B, 0x0C0D0E0F, 0x10111213, 0x14151617, 0x5846F2F9, 0x5C43F4FE, 0x544AFEF5, 0x5847F0FA, 0x4856E2E9, 0x5C43F4FE, 0x00000000, 0x00000000, 0x00000000, 0x00000000, 0x00000000, 0x00000000, 0x00000000, 0x00000000, 0x00000000, 0x00000000, 0x00000000, 0x00000000, 0x00000000, 0x00000000, 0x00000000, 0x00000000, 0x00000000, 0x00000000, 0x00000000, 0x00000000, 0x00000000, 0x00000000, 0x00000000, 0x00000000, 0x00000000, 0x00000000, 0x00000000, 0x00000000, 0x00000000, 0x00000000, 0x00000000, 0x00000000, 0x00000000, 0x00000000, 0x00000000, 0x00000000, 0x00000000, 0x00000000, 0x00000000, 0x00000000] := by decide +kernel
  have h4 : expandRot 12 6 2 [0x00010203, 0x04050607, 0x08090A0B, 0x0C0D0E0F, 0x10111213, 0x14151617, 0x5846F2F9, 0x5C43F4FE, 0x544AFEF5, 0x5847F0FA, 0x4856E2E9, 0x5C43F4FE, 0x00000000, 0x00000000, 0x00000000, 0x00000000, 0x00000000, 0x00000000, 0x00000000, 0x00000000, 0x00000000, 0x00000000, 0x00000000, 0x00000000, 0x00000000, 0x00000000, 0x00000000, 0x00000000, 0x00000000, 0x00000000, 0x00000000, 0x00000000, 0x00000000, 0x00000000, 0x00000000, 0x00000000, 0x00000000, 0x00000000, 0x00000000, 0x00000000, 0x00000000, 0x00000000, 0x00000000, 0x00000000, 0x00000000, 0x00000000, 0x00000000, 0x00000000, 0x00000000, 0x00000000, 0x00000000, 0x00000000] = .ok [0x00010203, 0x04050607, 0x08090A0B, 0x0C0D0E0F, 0x10111213, 0x14151617, 0x5846F2F9, 0x5C43F4FE, 0x544AFEF5, 0x5847F0FA, 0x4856E2E9, 0x5C43F4FE, 0x40F949B3, 0x1CBABD4D, 0x48F043B8, 0x10B7B342, 0x00000000, 0x00000000, 0x00000000, 0x00000000, 0x00000000, 0x00000000, 0x00000000, 0x00000000, 0x00000000, 0x00000000, 0x00000000, 0x00000000, 0x00000000, 0x00000000, 0x00000000, 0x00000000, 0x00000000, 0x00000000, 0x00000000, 0x00000000, 0x00000000, 0x00000000, 0x00000000, 0x00000000, 0x00000000, 0x00000000, 0x00000000, 0x00000000, 0x00000000, 0x00000000, 0x00000000, 0x00000000, 0x00000000, 0x00000000, 0x00000000, 0x00000000] := by decide +kernel
  have h5 : chainWord 16 10 [0x00010203, 0x04050607, 0x08090A0B, 0x0C0D0E0F, 0x10111213, 0x14151617, 0x5846F2F9, 0x5C43F4FE, 0x544AFEF5, 0x5847F0FA, 0x4856E2E9, 0x5C43F4FE, 0x40F949B3, 0x1CBABD4D, 0x48F043B8, 0x10B7B342, 0x00000000, 0x00000000, 0x00000000, 0x00000000, 0x00000000, 0x00000000, 0x00000000, 0x00000000, 0x00000000, 0x00000000, 0x00000000, 0x00000000, 0x00000000, 0x00000000, 0x00000000, 0x00000000, 0x00000000, 0x00000000, 0x00000000, 0x00000000, 0x00000000, 0x00000000, 0x00000000, 0x00000000, 0x00000000, 0x00000000, 0x00000000, 0x00000000, 0x00000000, 0x00000000, 0x00000000, 0x00000000, 0x00000000, 0x00000000, 0x00000000, 0x00000000] = .ok [0x00010203, 0x04050607, 0x08090A0B, 0x0C0D0E0F, 0x10111213, 0x14151617, 0x5846F2F9, 0x5C43F4FE, 0x544AFEF5, 0x5847F0FA, 0x4856E2E9, 0x5C43F4FE, 0x40F949B3, 0x1CBABD4D, 0x48F043B8, 0x10B7B342, 0x58E151AB, 0x00000000, 0x00000000, 0x00000000, 0x00000000, 0x00000000, 0x00000000, 0x00000000, 0x00000000, 0x00000000, 0x00000000, 0x00000000, 0x00000000, 0x00000000, 0x00000000, 0x00000000, 0x00000000, 0x00000000, 0x00000000, 0x00000000, 0x00000000, 0x00000000, 0x00000000, 0x00000000, 0x00000000, 0x00000000, 0x00000000, 0x00000000, 0x00000000, 0x00000000, 0x00000000, 0x00000000, 0x00000000, 0x00000000, 0x00000000, 0x00000000] := by decide +kernel
  have h6 : chainWord 17 11 [0x00010203, 0x04050607, 0x08090A0B, 0x0C0D0E0F, 0x10111213, 0x14151617, 0x5846F2F9, 0x5C43F4FE, 0x544AFEF5, 0x5847F0FA, 0x4856E2E9, 0x5C43F4FE, 0x40F949B3, 0x1CBABD4D, 0x48F043B8, 0x10B7B342, 0x58E151AB, 0x00000000, 0x00000000, 0x00000000, 0x00000000, 0x00000000, 0x00000000, 0x00000000, 0x00000000, 0x00000000, 0x00000000, 0x00000000, 0x00000000, 0x00000000, 0x00000000, 0x00000000, 0x00000000, 0x00000000, 0x00000000, 0x00000000, 0x00000000, 0x00000000, 0x00000000, 0x00000000, 0x00000000, 0x00000000, 0x00000000, 0x00000000, 0x00000000, 0x00000000, 0x00000000, 0x00000000, 0x00000000, 0x00000000, 0x00000000, 0x00000000] = .ok [0x00010203, 0x04050607, 0x08090A0B, 0x0C0D0E0F, 0x10111213, 0x14151617, 0x5846F2F9, 0x5C43F4FE, 0x544AFEF5, 0x5847F0FA, 0x4856E2E9, 0x5C43F4FE, 0x40F949B3, 0x1CBABD4D, 0x48F043B8, 0x10B7B342, 0x58E151AB, 0x04A2A555, 0x00000000, 0x00000000, 0x00000000, 0x00000000, 0x00000000, 0x00000000, 0x00000000, 0x00000000, 0x00000000, 0x00000000, 0x00000000, 0x00000000, 0x00000000, 0x00000000, 0x00000000, 0x00000000, 0x00000000, 0x00000000, 0x00000000, 0x00000000, 0x00000000, 0x00000000, 0x00000000, 0x00000000, 0x00000000, 0x00000000, 0x00000000, 0x00000000, 0x00000000, 0x00000000, 0x00000000, 0x00000000, 0x00000000, 0x00000000] := by decide +kernel
  have h7 : expandRot 18 6 3 [0x00010203, 0x04050607, 0x08090A0B, 0x0C0D0E0F, 0x10111213, 0x14151617, 0x5846F2F9, 0x5C43F4FE, 0x544AFEF5, 0x5847F0FA, 0x4856E2E9, 0x5C43F4FE, 0x40F949B3, 0x1CBABD4D, 0x48F043B8, 0x10B7B342, 0x58E151AB, 0x04A2A555, 0x00000000, 0x00000000, 0x00000000, 0x00000000, 0x00000000, 0x00000000, 0x00000000, 0x00000000, 0x00000000, 0x00000000, 0x00000000, 0x00000000, 0x00000000, 0x00000000, 0x00000000, 0x00000000, 0x00000000, 0x00000000, 0x00000000, 0x00000000, 0x00000000, 0x00000000, 0x00000000, 0x00000000, 0x00000000, 0x00000000, 0x00000000, 0x00000000, 0x00000000, 0x00000000, 0x00000000, 0x00000000, 0x00000000, 0x00000000] = .ok [0x00010203, 0x04050607, 0x08090A0B, 0x0C0D0E0F, 0x10111213, 0x14151617, 0x5846F2F9, 0x5C43F4FE, 0x544AFEF5, 0x5847F0FA, 0x4856E2E9, 0x5C43F4FE, 0x40F949B3, 0x1CBABD4D, 0x48F043B8, 0x10B7B342, 0x58E151AB, 0x04A2A555, 0x7EFFB541, 0x6245080C, 0x2AB54BB4, 0x3A02F8F6, 0x00000000, 0x00000000, 0x00000000, 0x00000000, 0x00000000, 0x00000000, 0x00000000, 0x00000000, 0x00000000, 0x00000000, 0x00000000, 0x00000000, 0x00000000, 0x00000000, 0x00000000, 0x00000000, 0x00000000, 0x00000000, 0x00000000, 0x00000000, 0x00000000, 0x00000000, 0x00000000, 0x00000000, 0x00000000, 0x00000000, 0x00000000, 0x00000000, 0x00000000, 0x00000000] := by decide +kernel
  have h8 : chainWord 22 16 [0x00010203, 0x04050607, 0x08090A0B, 0x0C0D0E0F, 0x10111213, 0x14151617, 0x5846F2F9, 0x5C43F4FE, 0x544AFEF5, 0x5847F0FA, 0x4856E2E9, 0x5C43F4FE, 0x40F949B3, 0x1CBABD4D, 0x48F043B8, 0x10B7B342, 0x58E151AB, 0x04A2A555, 0x7EFFB541, 0x6245080C, 0x2AB54BB4, 0x3A02F8F6, 0x00000000, 0x00000000, 0x00000000, 0x00000000, 0x00000000, 0x00000000, 0x00000000, 0x00000000, 0x00000000, 0x00000000, 0x00000000, 0x00000000, 0x00000000, 0x00000000, 0x00000000, 0x00000000, 0x00000000, 0x00000000, 0x00000000, 0x00000000, 0x00000000, 0x00000000, 0x00000000, 0x00000000, 0x00000000, 0x00000000, 0x00000000, 0x00000000, 0x00000000, 0x00000000] = .ok [0x00010203, 0x04050607, 0x08090A0B, 0x0C0D0E0F, 0x10111213, 0x14151617, 0x5846F2F9, 0x5C43F4FE, 0x544AFEF5, 0x5847F0FA, 0x4856E2E9, 0x5C43F4FE, 0x40F949B3, 0x1CBABD4D, 0x48F043B8, 0x10B7B342, 0x58E151AB, 0x04A2A555, 0x7EFFB541, 0x6245080C, 0x2AB54BB4, 0x3A02F8F6, 0x62E3A95D, 0x00000000, 0x00000000, 0x00000000, 0x00000000, 0x00000000, 0x00000000, 0x00000000, 0x00000000, 0x00000000, 0x00000000, 0x00000000, 0x00000000, 0x00000000, 0x00000000, 0x00000000, 0x00000000, 0x00000000, 0x00000000, 0x00000000, 0x00000000, 0x00000000, 0x00000000, 0x00000000, 0x00000000, 0x00000000, 0x00000000, 0x00000000, 0x00000000, 0x00000000] := by decide +kernel
  have h9 : chainWord 23 17 [0x00010203, 0x04050607, 0x08090A0B, 0x0C0D0E0F, 0x10111213, 0x14151617, 0x5846F2F9, 0x5C43F4FE, 0x544AFEF5, 0x5847F0FA, 0x4856E2E9, 0x5C43F4FE, 0x40F949B3, 0x1CBABD4D, 0x48F043B8, 0x10B7B342, 0x58E151AB, 0x04A2A555, 0x7EFFB541, 0x6245080C, 0x2AB54BB4, 0x3A02F8F6, 0x62E3A95D, 0x00000000, 0x00000000, 0x00000000, 0x00000000, 0x00000000, 0x00000000, 0x00000000, 0x00000000, 0x00000000, 0x00000000, 0x00000000, 0x00000000, 0x00000000, 0x00000000, 0x00000000, 0x00000000, 0x00000000, 0x00000000, 0x00000000, 0x00000000, 0x00000000, 0x00000000, 0x00000000, 0x00000000, 0x00000000, 0x00000000, 0x00000000, 0x00000000, 0x00000000] = .ok [0x00010203, 0x04050607, 0x08090A0B, 0x0C0D0E0F, 0x10111213, 0x14151617, 0x5846F2F9, 0x5C43F4FE, 0x544AFEF5, 0x5847F0FA, 0x4856E2E9, 0x5C43F4FE, 0x40F949B3, 0x1CBABD4D, 0x48F043B8, 0x10B7B342, 0x58E151AB, 0x04A2A555, 0x7EFFB541, 0x6245080C, 0x2AB54BB4, 0x3A02F8F6, 0x62E3A95D, 0x66410C08, 0x00000000, 0x00000000, 0x00000000, 0x00000000, 0x00000000, 0x00000000, 0x00000000, 0x00000000, 0x00000000, 0x00000000, 0x00000000, 0x00000000, 0x00000000, 0x00000000, 0x00000000, 0x00000000, 0x00000000, 0x00000000, 0x00000000, 0x00000000, 0x00000000, 0x00000000, 0x00000000, 0x00000000, 0x00000000, 0x00000000, 0x00000000, 0x00000000] := by decide +kernel
  have h10 : expandRot 24 6 4 [0x00010203, 0x04050607, 0x08090A0B, 0x0C0D0E0F, 0x10111213, 0x14151617, 0x5846F2F9, 0x5C43F4FE, 0x544AFEF5, 0x5847F0FA, 0x4856E2E9, 0x5C43F4FE, 0x40F949B3, 0x1CBABD4D, 0x48F043B8, 0x10B7B342, 0x58E151AB, 0x04A2A555, 0x7EFFB541, 0x6245080C, 0x2AB54BB4, 0x3A02F8F6, 0x62E3A95D, 0x66410C08, 0x00000000, 0x00000000, 0x00000000, 0x00000000, 0x00000000, 0x00000000, 0x00000000, 0x00000000, 0x00000000, 0x00000000, 0x00000000, 0x00000000, 0x00000000, 0x00000000, 0x00000000, 0x00000000, 0x00000000, 0x00000000, 0x00000000, 0x00000000, 0x00000000, 0x00000000, 0x00000000, 0x00000000, 0x00000000, 0x00000000, 0x00000000, 0x00000000] = .ok [0x00010203, 0x04050607, 0x08090A0B, 0x0C0D0E0F, 0x10111213, 0x14151617, 0x5846F2F9, 0x5C43F4FE, 0x544AFEF5, 0x5847F0FA, 0x4856E2E9, 0x5C43F4FE, 0x40F949B3, 0x1CBABD4D, 0x48F043B8, 0x10B7B342, 0x58E151AB, 0x04A2A555, 0x7EFFB541, 0x6245080C, 0x2AB54BB4, 0x3A02F8F6, 0x62E3A95D, 0x66410C08, 0xF5018572, 0x97448D7E, 0xBDF1C6CA, 0x87F33E3C, 0x00000000, 0x00000000, 0x00000000, 0x00000000, 0x00000000, 0x00000000, 0x00000000, 0x00000000, 0x00000000, 0x00000000, 0x00000000, 0x00000000, 0x00000000, 0x00000000, 0x00000000, 0x00000000, 0x00000000, 0x00000000, 0x00000000, 0x00000000, 0x00000000, 0x00000000, 0x00000000, 0x00000000] := by decide +kernel
  have h11 : chainWord 28 22 [0x00010203, 0x04050607, 0x08090A0B, 0x0C0D0E0F, 0x10111213, 0x14151617, 0x5846F2F9, 0x5C43F4FE, 0x544AFEF5, 0x5847F0FA, 0x4856E2E9, 0x5C43F4FE, 0x40F949B3, 0x1CBABD4D, 0x48F043B8, 0x10B7B342, 0x58E151AB, 0x04A2A555, 0x7EFFB541, 0x6245080C, 0x2AB54BB4, 0x3A02F8F6, 0x62E3A95D, 0x66410C08, 0xF5018572, 0x97448D7E, 0xBDF1C6CA, 0x87F33E3C, 0x00000000, 0x00000000, 0x00000000, 0x00000000, 0x00000000, 0x00000000, 0x00000000, 0x00000000, 0x00000000, 0x00000000, 0x00000000, 0x00000000, 0x00000000, 0x00000000, 0x00000000, 0x00000000, 0x00000000, 0x00000000, 0x00000000, 0x00000000, 0x00000000, 0x00000000, 0x00000000, 0x00000000] = .ok [0x00010203, 0x04050607, 0x08090A0B, 0x0C0D0E0F, 0x10111213, 0x14151617, 0x5846F2F9, 0x5C43F4FE, 0x544AFEF5, 0x5847F0FA, 0x4856E2E9, 0x5C43F4FE, 0x40F949B3, 0x1CBABD4D, 0x48F043B8, 0x10B7B342, 0x58E151AB, 0x04A2A555, 0x7EFFB541, 0x6245080C, 0x2AB54BB4, 0x3A02F8F6, 0x62E3A95D, 0x66410C08, 0xF5018572, 0x97448D7E, 0xBDF1C6CA, 0x87F33E3C, 0xE5109761, 0x00000000, 0x00000000, 0x00000000, 0x00000000, 0x00000000, 0x00000000, 0x00000000, 0x00000000, 0x00000000, 0x00000000, 0x00000000, 0x00000000, 0x00000000, 0x00000000, 0x00000000, 0x00000000, 0x00000000, 0x00000000, 0x00000000, 0x00000000, 0x00000000, 0x00000000, 0x00000000] := by decide +kernel
  have h12 : chainWord 29 23 [0x00010203, 0x04050607, 0x08090A0B, 0x0C0D0E0F, 0x10111213, 0x14151617, 0x5846F2F9, 0x5C43F4FE, 0x544AFEF5, 0x5847F0FA, 0x4856E2E9, 0x5C43F4FE, 0x40F949B3, 0x1CBABD4D, 0x48F043B8, 0x10B7B342, 0x58E151AB, 0x04A2A555, 0x7EFFB541, 0x6245080C, 0x2AB54BB4, 0x3A02F8F6, 0x62E3A95D, 0x66410C08, 0xF5018572, 0x97448D7E, 0xBDF1C6CA, 0x87F33E3C, 0xE5109761, 0x00000000, 0x00000000, 0x00000000, 0x00000000, 0x00000000, 0x00000000, 0x00000000, 0x00000000, 0x00000000, 0x00000000, 0x00000000, 0x00000000, 0x00000000, 0x00000000, 0x00000000, 0x00000000, 0x00000000, 0x00000000, 0x00000000, 0x00000000, 0x00000000, 0x00000000, 0x00000000] = .ok [0x00010203, 0x04050607, 0x08090A0B, 0x0C0D0E0F, 0x10111213, 0x14151617, 0x5846F2F9, 0x5C43F4FE, 0x544AFEF5, 0x5847F0FA, 0x4856E2E9, 0x5C43F4FE, 0x40F949B3, 0x1CBABD4D, 0x48F043B8, 0x10B7B342, 0x58E151AB, 0x04A2A555, 0x7EFFB541, 0x6245080C, 0x2AB54BB4, 0x3A02F8F6, 0x62E3A95D, 0x66410C08, 0xF5018572, 0x97448D7E, 0xBDF1C6CA, 0x87F33E3C, 0xE5109761, 0x83519B69, 0x00000000, 0x00000000, 0x00000000, 0x00000000, 0x00000000, 0x00000000, 0x00000000, 0x00000000, 0x00000000, 0x00000000, 0x00000000, 0x00000000, 0x00000000, 0x00000000, 0x00000000, 0x00000000, 0x00000000, 0x00000000, 0x00000000, 0x00000000, 0x00000000, 0x00000000] := by decide +kernel
  have h13 : expandRot 30 6 5 [0x00010203, 0x04050607, 0x08090A0B, 0x0C0D0E0F, 0x10111213, 0x14151617, 0x5846F2F9, 0x5C43F4FE, 0x544AFEF5, 0x5847F0FA, 0x4856E2E9, 0x5C43F4FE, 0x40F949B3, 0x1CBABD4D, 0x48F043B8, 0x10B7B342, 0x58E151AB, 0x04A2A555, 0x7EFFB541, 0x6245080C, 0x2AB54BB4, 0x3A02F8F6, 0x62E3A95D, 0x66410C08, 0xF5018572, 0x97448D7E, 0xBDF1C6CA, 0x87F33E3C, 0xE5109761, 0x83519B69, 0x00000000, 0x00000000, 0x00000000, 0x00000000, 0x00000000, 0x00000000, 0x00000000, 0x00000000, 0x00000000, 0x00000000, 0x00000000, 0x00000000, 0x00000000, 0x00000000, 0x00000000, 0x00000000, 0x00000000, 0x00000000, 0x00000000, 0x00000000, 0x00000000, 0x00000000] = .ok [0x00010203, 0x04050607, 0x08090A0B, 0x0C0D0E0F, 0x10111213, 0x14151617, 0x5846F2F9, 0x5C43F4FE, 0x544AFEF5, 0x5847F0FA, 0x4856E2E9, 0x5C43F4FE, 0x40F949B3, 0x1CBABD4D, 0x48F043B8, 0x10B7B342, 0x58E151AB, 0x04A2A555, 0x7EFFB541, 0x6245080C, 0x2AB54BB4, 0x3A02F8F6, 0x62E3A95D, 0x66410C08, 0xF5018572, 0x97448D7E, 0xBDF1C6CA, 0x87F33E3C, 0xE5109761, 0x83519B69, 0x34157C9E, 0xA351F1E0, 0x1EA0372A, 0x99530916, 0x00000000, 0x00000000, 0x00000000, 0x00000000, 0x00000000, 0x00000000, 0x00000000, 0x00000000, 0x00000000, 0x00000000, 0x00000000, 0x00000000, 0x00000000, 0x00000000, 0x00000000, 0x00000000, 0x00000000, 0x00000000] := by decide +kernel
  have h14 : chainWord 34 28 [0x00010203, 0x04050607, 0x08090A0B, 0x0C0D0E0F, 0x10111213, 0x14151617, 0x5846F2F9, 0x5C43F4FE, 0x544AFEF5, 0x5847F0FA, 0x4856E2E9, 0x5C43F4FE, 0x40F949B3, 0x1CBABD4D, 0x48F043B8, 0x10B7B342, 0x58E151AB, 0x04A2A555, 0x7EFFB541, 0x6245080C, 0x2AB54BB4, 0x3A02F8F6, 0x62E3A95D, 0x66410C08, 0xF5018572, 0x97448D7E, 0xBDF1C6CA, 0x87F33E3C, 0xE5109761, 0x83519B69, 0x34157C9E, 0xA351F1E0, 0x1EA0372A, 0x99530916, 0x00000000, 0x00000000, 0x00000000, 0x00000000, 0x00000000, 0x00000000, 0x00000000, 0x00000000, 0x00000000, 0x00000000, 0x00000000, 0x00000000, 0x00000000, 0x00000000, 0x00000000, 0x00000000, 0x00000000, 0x00000000] = .ok [0x00010203, 0x04050607, 0x08090A0B, 0x0C0D0E0F, 0x10111213, 0x14151617, 0x5846F2F9, 0x5C43F4FE, 0x544AFEF5, 0x5847F0FA, 0x4856E2E9, 0x5C43F4FE, 0x40F949B3, 0x1CBABD4D, 0x48F043B8, 0x10B7B342, 0x58E151AB, 0x04A2A555, 0x7EFFB541, 0x6245080C, 0x2AB54BB4, 0x3A02F8F6, 0x62E3A95D, 0x66410C08, 0xF5018572, 0x97448D7E, 0xBDF1C6CA, 0x87F33E3C, 0xE5109761, 0x83519B69, 0x34157C9E, 0xA351F1E0, 0x1EA0372A, 0x99530916, 0x7C439E77, 0x00000000, 0x00000000, 0x00000000, 0x00000000, 0x00000000, 0x00000000, 0x00000000, 0x00000000, 0x00000000, 0x00000000, 0x00000000, 0x00000000, 0x00000000, 0x00000000, 0x00000000, 0x00000000, 0x00000000] := by decide +kernel
  have h15 : chainWord 35 29 [0x00010203, 0x04050607, 0x08090A0B, 0x0C0D0E0F, 0x10111213, 0x14151617, 0x5846F2F9, 0x5C43F4FE, 0x544AFEF5, 0x5847F0FA, 0x4856E2E9, 0x5C43F4FE, 0x40F949B3, 0x1CBABD4D, 0x48F043B8, 0x10B7B342, 0x58E151AB, 0x04A2A555, 0x7EFFB541, 0x6245080C, 0x2AB54BB4, 0x3A02F8F6, 0x62E3A95D, 0x66410C08, 0xF5018572, 0x97448D7E, 0xBDF1C6CA, 0x87F33E3C, 0xE5109761, 0x83519B69, 0x34157C9E, 0xA351F1E0, 0x1EA0372A, 0x99530916, 0x7C439E77, 0x00000000, 0x00000000, 0x00000000, 0x00000000, 0x00000000, 0x00000000, 0x00000000, 0x00000000, 0x00000000, 0x00000000, 0x00000000, 0x00000000, 0x00000000, 0x00000000, 0x00000000, 0x00000000, 0x00000000] = .ok [0x00010203, 0x04050607, 0x08090A0B, 0x0C0D0E0F, 0x10111213, 0x14151617, 0x5846F2F9, 0x5C43F4FE, 0x544AFEF5, 0x5847F0FA, 0x4856E2E9, 0x5C43F4FE, 0x40F949B3, 0x1CBABD4D, 0x48F043B8, 0x10B7B342, 0x58E151AB, 0x04A2A555, 0x7EFFB541, 0x6245080C, 0x2AB54BB4, 0x3A02F8F6, 0x62E3A95D, 0x66410C08, 0xF5018572, 0x97448D7E, 0xBDF1C6CA, 0x87F33E3C, 0xE5109761, 0x83519B69, 0x34157C9E, 0xA351F1E0, 0x1EA0372A, 0x99530916, 0x7C439E77, 0xFF12051E, 0x00000000, 0x00000000, 0x00000000, 0x00000000, 0x00000000, 0x00000000, 0x00000000, 0x00000000, 0x00000000, 0x00000000, 0x00000000, 0x00000000, 0x00000000, 0x00000000, 0x00000000, 0x00000000] := by decide +kernel
  have h16 : expandRot 36 6 6 [0x00010203, 0x04050607, 0x08090A0B, 0x0C0D0E0F, 0x10111213, 0x14151617, 0x5846F2F9, 0x5C43F4FE, 0x544AFEF5, 0x5847F0FA, 0x4856E2E9, 0x5C43F4FE, 0x40F949B3, 0x1CBABD4D, 0x48F043B8, 0x10B7B342, 0x58E151AB, 0x04A2A555, 0x7EFFB541, 0x6245080C, 0x2AB54BB4, 0x3A02F8F6, 0x62E3A95D, 0x66410C08, 0xF5018572, 0x97448D7E, 0xBDF1C6CA, 0x87F33E3C, 0xE5109761, 0x83519B69, 0x34157C9E, 0xA351F1E0, 0x1EA0372A, 0x99530916, 0x7C439E77, 0xFF12051E, 0x00000000, 0x00000000, 0x00000000, 0x00000000, 0x00000000, 0x00000000, 0x00000000, 0x00000000, 0x00000000, 0x00000000, 0x00000000, 0x00000000, 0x00000000, 0x00000000, 0x00000000, 0x00000000] = .ok [0x00010203, 0x04050607, 0x08090A0B, 0x0C0D0E0F, 0x10111213, 0x14151617, 0x5846F2F9, 0x5C43F4FE, 0x544AFEF5, 0x5847F0FA, 0x4856E2E9, 0x5C43F4FE, 0x40F949B3, 0x1CBABD4D, 0x48F043B8, 0x10B7B342, 0x58E151AB, 0x04A2A555, 0x7EFFB541, 0x6245080C, 0x2AB54BB4, 0x3A02F8F6, 0x62E3A95D, 0x66410C08, 0xF5018572, 0x97448D7E, 0xBDF1C6CA, 0x87F33E3C, 0xE5109761, 0x83519B69, 0x34157C9E, 0xA351F1E0, 0x1EA0372A, 0x99530916, 0x7C439E77, 0xFF12051E, 0xDD7E0E88, 0x7E2FFF68, 0x608FC842, 0xF9DCC154, 0x00000000, 0x00000000, 0x00000000, 0x00000000, 0x00000000, 0x00000000, 0x00000000, 0x00000000, 0x00000000, 0x00000000, 0x00000000, 0x00000000] := by decide +kernel
  have h17 : chainWord 40 34 [0x00010203, 0x04050607, 0x08090A0B, 0x0C0D0E0F, 0x10111213, 0x14151617, 0x5846F2F9, 0x5C43F4FE, 0x544AFEF5, 0x5847F0FA, 0x4856E2E9, 0x5C43F4FE, 0x40F949B3, 0x1CBABD4D, 0x48F043B8, 0x10B7B342, 0x58E151AB, 0x04A2A555, 0x7EFFB541, 0x6245080C, 0x2AB54BB4, 0x3A02F8F6, 0x62E3A95D, 0x66410C08, 0xF5018572, 0x97448D7E, 0xBDF1C6CA, 0x87F33E3C, 0xE5109761, 0x83519B69, 0x34157C9E, 0xA351F1E0, 0x1EA0372A, 0x99530916, 0x7C439E77, 0xFF12051E, 0xDD7E0E88, 0x7E2FFF68, 0x608FC842, 0xF9DCC154, 0x00000000, 0x00000000, 0x00000000, 0x00000000, 0x00000000, 0x00000000, 0x00000000, 0x00000000, 0x00000000, 0x00000000, 0x00000000, 0x00000000] = .ok [0x00010203, 0x04050607, 0x08090A0B, 0x0C0D0E0F, 0x10111213, 0x14151617, 0x5846F2F9, 0x5C43F4FE, 0x544AFEF5, 0x5847F0FA, 0x4856E2E9, 0x5C43F4FE, 0x40F949B3, 0x1CBABD4D, 0x48F043B8, 0x10B7B342, 0x58E151AB, 0x04A2A555, 0x7EFFB541, 0x6245080C, 0x2AB54BB4, 0x3A02F8F6, 0x62E3A95D, 0x66410C08, 0xF5018572, 0x97448D7E, 0xBDF1C6CA, 0x87F33E3C, 0xE5109761, 0x83519B69, 0x34157C9E, 0xA351F1E0, 0x1EA0372A, 0x99530916, 0x7C439E77, 0xFF12051E, 0xDD7E0E88, 0x7E2FFF68, 0x608FC842, 0xF9DCC154, 0x859F5F23, 0x00000000, 0x00000000, 0x00000000, 0x00000000, 0x00000000, 0x00000000, 0x00000000, 0x00000000, 0x00000000, 0x00000000, 0x00000000] := by decide +kernel
  have h18 : chainWord 41 35 [0x00010203, 0x04050607, 0x08090A0B, 0x0C0D0E0F, 0x10111213, 0x14151617, 0x5846F2F9, 0x5C43F4FE, 0x544AFEF5, 0x5847F0FA, 0x4856E2E9, 0x5C43F4FE, 0x40F949B3, 0x1CBABD4D, 0x48F043B8, 0x10B7B342, 0x58E151AB, 0x04A2A555, 0x7EFFB541, 0x6245080C, 0x2AB54BB4, 0x3A02F8F6, 0x62E3A95D, 0x66410C08, 0xF5018572, 0x97448D7E, 0xBDF1C6CA, 0x87F33E3C, 0xE5109761, 0x83519B69, 0x34157C9E, 0xA351F1E0, 0x1EA0372A, 0x99530916, 0x7C439E77, 0xFF12051E, 0xDD7E0E88, 0x7E2FFF68, 0x608FC842, 0xF9DCC154, 0x859F5F23, 0x00000000, 0x00000000, 0x00000000, 0x00000000, 0x00000000, 0x00000000, 0x00000000, 0x00000000, 0x00000000, 0x00000000, 0x00000000] = .ok [0x00010203, 0x04050607, 0x08090A0B, 0x0C0D0E0F, 0x10111213, 0x14151617, 0x5846F2F9, 0x5C43F4FE, 0x544AFEF5, 0x5847F0FA, 0x4856E2E9, 0x5C43F4FE, 0x40F949B3, 0x1CBABD4D, 0x48F043B8, 0x10B7B342, 0x58E151AB, 0x04A2A555, 0x7EFFB541, 0x6245080C, 0x2AB54BB4, 0x3A02F8F6, 0x62E3A95D, 0x66410C08, 0xF5018572, 0x97448D7E, 0xBDF1C6CA, 0x87F33E3C, 0xE5109761, 0x83519B69, 0x34157C9E, 0xA351F1E0, 0x1EA0372A, 0x99530916, 0x7C439E77, 0xFF12051E, 0xDD7E0E88, 0x7E2FFF68, 0x608FC842, 0xF9DCC154, 0x859F5F23, 0x7A8D5A3D, 0x00000000, 0x00000000, 0x00000000, 0x00000000, 0x00000000, 0x00000000, 0x00000000, 0x00000000, 0x00000000, 0x00000000] := by decide +kernel
  have h19 : expandRot 42 6 7 [0x00010203, 0x04050607, 0x08090A0B, 0x0C0D0E0F, 0x10111213, 0x14151617, 0x5846F2F9, 0x5C43F4FE, 0x544AFEF5, 0x5847F0FA, 0x4856E2E9, 0x5C43F4FE, 0x40F949B3, 0x1CBABD4D, 0x48F043B8, 0x10B7B342, 0x58E151AB, 0x04A2A555, 0x7EFFB541, 0x6245080C, 0x2AB54BB4, 0x3A02F8F6, 0x62E3A95D, 0x66410C08, 0xF5018572, 0x97448D7E, 0xBDF1C6CA, 0x87F33E3C, 0xE5109761, 0x83519B69, 0x34157C9E, 0xA351F1E0, 0x1EA0372A, 0x99530916, 0x7C439E77, 0xFF12051E, 0xDD7E0E88, 0x7E2FFF68, 0x608FC842, 0xF9DCC154, 0x859F5F23, 0x7A8D5A3D, 0x00000000, 0x00000000, 0x00000000, 0x00000000, 0x00000000, 0x00000000, 0x00000000, 0x00000000, 0x00000000, 0x00000000] = .ok [0x00010203, 0x04050607, 0x08090A0B, 0x0C0D0E0F, 0x10111213, 0x14151617, 0x5846F2F9, 0x5C43F4FE, 0x544AFEF5, 0x5847F0FA, 0x4856E2E9, 0x5C43F4FE, 0x40F949B3, 0x1CBABD4D, 0x48F043B8, 0x10B7B342, 0x58E151AB, 0x04A2A555, 0x7EFFB541, 0x6245080C, 0x2AB54BB4, 0x3A02F8F6, 0x62E3A95D, 0x66410C08, 0xF5018572, 0x97448D7E, 0xBDF1C6CA, 0x87F33E3C, 0xE5109761, 0x83519B69, 0x34157C9E, 0xA351F1E0, 0x1EA0372A, 0x99530916, 0x7C439E77, 0xFF12051E, 0xDD7E0E88, 0x7E2FFF68, 0x608FC842, 0xF9DCC154, 0x859F5F23, 0x7A8D5A3D, 0xC0C02952, 0xBEEFD63A, 0xDE601E78, 0x27BCDF2C, 0x00000000, 0x00000000, 0x00000000, 0x00000000, 0x00000000, 0x00000000] := by decide +kernel
  have h20 : chainWord 46 40 [0x00010203, 0x04050607, 0x08090A0B, 0x0C0D0E0F, 0x10111213, 0x14151617, 0x5846F2F9, 0x5C43F4FE, 0x544AFEF5, 0x5847F0FA, 0x4856E2E9, 0x5C43F4FE, 0x40F949B3, 0x1CBABD4D, 0x48F043B8, 0x10B7B342, 0x58E151AB, 0x04A2A555, 0x7EFFB541, 0x6245080C, 0x2AB54BB4, 0x3A02F8F6, 0x62E3A95D, 0x66410C08, 0xF5018572, 0x97448D7E, 0xBDF1C6CA, 0x87F33E3C, 0xE5109761, 0x83519B69, 0x34157C9E, 0xA351F1E0, 0x1EA0372A, 0x99530916, 0x7C439E77, 0xFF12051E, 0xDD7E0E88, 0x7E2FFF68, 0x608FC842, 0xF9DCC154, 0x859F5F23, 0x7A8D5A3D, 0xC0C02952, 0xBEEFD63A, 0xDE601E78, 0x27BCDF2C, 0x00000000, 0x00000000, 0x00000000, 0x00000000, 0x00000000, 0x00000000] = .ok [0x00010203, 0x04050607, 0x08090A0B, 0x0C0D0E0F, 0x10111213, 0x14151617, 0x5846F2F9, 0x5C43F4FE, 0x544AFEF5, 0x5847F0FA, 0x4856E2E9, 0x5C43F4FE, 0x40F949B3, 0x1CBABD4D, 0x48F043B8, 0x10B7B342, 0x58E151AB, 0x04A2A555, 0x7EFFB541, 0x6245080C, 0x2AB54BB4, 0x3A02F8F6, 0x62E3A95D, 0x66410C08, 0xF5018572, 0x97448D7E, 0xBDF1C6CA, 0x87F33E3C, 0xE5109761, 0x83519B69, 0x34157C9E, 0xA351F1E0, 0x1EA0372A, 0x99530916, 0x7C439E77, 0xFF12051E, 0xDD7E0E88, 0x7E2FFF68, 0x608FC842, 0xF9DCC154, 0x859F5F23, 0x7A8D5A3D, 0xC0C02952, 0xBEEFD63A, 0xDE601E78, 0x27BCDF2C, 0xA223800F, 0x00000000, 0x00000000, 0x00000000, 0x00000000, 0x00000000] := by decide +kernel
  have h21 : chainWord 47 41 [0x00010203, 0x04050607, 0x08090A0B, 0x0C0D0E0F, 0x10111213, 0x14151617, 0x5846F2F9, 0x5C43F4FE, 0x544AFEF5, 0x5847F0FA, 0x4856E2E9, 0x5C43F4FE, 0x40F949B3, 0x1CBABD4D, 0x48F043B8, 0x10B7B342, 0x58E151AB, 0x04A2A555, 0x7EFFB541, 0x6245080C, 0x2AB54BB4, 0x3A02F8F6, 0x62E3A95D, 0x66410C08, 0xF5018572, 0x97448D7E, 0xBDF1C6CA, 0x87F33E3C, 0xE5109761, 0x83519B69, 0x34157C9E, 0xA351F1E0, 0x1EA0372A, 0x99530916, 0x7C439E77, 0xFF12051E, 0xDD7E0E88, 0x7E2FFF68, 0x608FC842, 0xF9DCC154, 0x859F5F23, 0x7A8D5A3D, 0xC0C02952, 0xBEEFD63A, 0xDE601E78, 0x27BCDF2C, 0xA223800F, 0x00000000, 0x00000000, 0x00000000, 0x00000000, 0x00000000] = .ok [0x00010203, 0x04050607, 0x08090A0B, 0x0C0D0E0F, 0x10111213, 0x14151617, 0x5846F2F9, 0x5C43F4FE, 0x544AFEF5, 0x5847F0FA, 0x4856E2E9, 0x5C43F4FE, 0x40F949B3, 0x1CBABD4D, 0x48F043B8, 0x10B7B342, 0x58E151AB, 0x04A2A555, 0x7EFFB541, 0x6245080C, 0x2AB54BB4, 0x3A02F8F6, 0x62E3A95D, 0x66410C08, 0xF5018572, 0x97448D7E, 0xBDF1C6CA, 0x87F33E3C, 0xE5109761, 0x83519B69, 0x34157C9E, 0xA351F1E0, 0x1EA0372A, 0x99530916, 0x7C439E77, 0xFF12051E, 0xDD7E0E88, 0x7E2FFF68, 0x608FC842, 0xF9DCC154, 0x859F5F23, 0x7A8D5A3D, 0xC0C02952, 0xBEEFD63A, 0xDE601E78, 0x27BCDF2C, 0xA223800F, 0xD8AEDA32, 0x00000000, 0x00000000, 0x00000000, 0x00000000] := by decide +kernel
  have h22 : expandRot 48 6 8 [0x00010203, 0x04050607, 0x08090A0B, 0x0C0D0E0F, 0x10111213, 0x14151617, 0x5846F2F9, 0x5C43F4FE, 0x544AFEF5, 0x5847F0FA, 0x4856E2E9, 0x5C43F4FE, 0x40F949B3, 0x1CBABD4D, 0x48F043B8, 0x10B7B342, 0x58E151AB, 0x04A2A555, 0x7EFFB541, 0x6245080C, 0x2AB54BB4, 0x3A02F8F6, 0x62E3A95D, 0x66410C08, 0xF5018572, 0x97448D7E, 0xBDF1C6CA, 0x87F33E3C, 0xE5109761, 0x83519B69, 0x34157C9E, 0xA351F1E0, 0x1EA0372A, 0x99530916, 0x7C439E77, 0xFF12051E, 0xDD7E0E88, 0x7E2FFF68, 0x608FC842, 0xF9DCC154, 0x859F5F23, 0x7A8D5A3D, 0xC0C02952, 0xBEEFD63A, 0xDE601E78, 0x27BCDF2C, 0xA223800F, 0xD8AEDA32, 0x00000000, 0x00000000, 0x00000000, 0x00000000] = .ok [0x00010203, 0x04050607, 0x08090A0B, 0x0C0D0E0F, 0x10111213, 0x14151617, 0x5846F2F9, 0x5C43F4FE, 0x544AFEF5, 0x5847F0FA, 0x4856E2E9, 0x5C43F4FE, 0x40F949B3, 0x1CBABD4D, 0x48F043B8, 0x10B7B342, 0x58E151AB, 0x04A2A555, 0x7EFFB541, 0x6245080C, 0x2AB54BB4, 0x3A02F8F6, 0x62E3A95D, 0x66410C08, 0xF5018572, 0x97448D7E, 0xBDF1C6CA, 0x87F33E3C, 0xE5109761, 0x83519B69, 0x34157C9E, 0xA351F1E0, 0x1EA0372A, 0x99530916, 0x7C439E77, 0xFF12051E, 0xDD7E0E88, 0x7E2FFF68, 0x608FC842, 0xF9DCC154, 0x859F5F23, 0x7A8D5A3D, 0xC0C02952, 0xBEEFD63A, 0xDE601E78, 0x27BCDF2C, 0xA223800F, 0xD8AEDA32, 0xA4970A33, 0x1A78DC09, 0xC418C271, 0xE3A41D5D] := by decide +kernel
  rw [standardExpand]
  simp only [show fipsKey24.length / 4 = 6 from rfl, show List.replicate (4 * (6 + 6 + 1)) (0 : Word) = [0x00000000, 0x00000000, 0x00000000, 0x00000000, 0x00000000, 0x00000000, 0x00000000, 0x00000000, 0x00000000, 0x00000000, 0x00000000, 0x00000000, 0x00000000, 0x00000000, 0x00000000, 0x00000000, 0x00000000, 0x00000000, 0x00000000, 0x00000000, 0x00000000, 0x00000000, 0x00000000, 0x00000000, 0x00000000, 0x00000000, 0x00000000, 0x00000000, 0x00000000, 0x00000000, 0x00000000, 0x00000000, 0x00000000, 0x00000000, 0x00000000, 0x00000000, 0x00000000, 0x00000000, 0x00000000, 0x00000000, 0x00000000, 0x00000000, 0x00000000, 0x00000000, 0x00000000, 0x00000000, 0x00000000, 0x00000000, 0x00000000, 0x00000000, 0x00000000, 0x00000000] from rfl]
  rw [if_neg (by decide), if_pos trivial]
  rw [h0, ok_bind, h1, ok_bind, h2, ok_bind, h3, ok_bind, h4, ok_bind, h5, ok_bind, h6, ok_bind, h7, ok_bind, h8, ok_bind, h9, ok_bind, h10, ok_bind, h11, ok_bind, h12, ok_bind, h13, ok_bind, h14, ok_bind, h15, ok_bind, h16, ok_bind, h17, ok_bind, h18, ok_bind, h19, ok_bind, h20, ok_bind, h21, ok_bind, h22, ok_bind]
  rfl

theorem fips_encrypt_24 : encrypt128 fipsRk24 12 fipsPlain 0 (List.replicate 16 0) 0 = .ok [0xDD, 0xA9, 0x7C, 0xA4, 0x86, 0x4C, 0xDF, 0xE0, 0x6E, 0xAF, 0x70, 0xA0, 0xEC, 0x0D, 0x71, 0x91] := by
  have e0 : keyAddition fipsRk24 0 fipsPlain = .ok [0x00, 0x10, 0x20, 0x30, 0x40, 0x50, 0x60, 0x70, 0x80, 0x90, 0xA0, 0xB0, 0xC0, 0xD0, 0xE0, 0xF0] := by decide +kernel
  have e1 : substitution [0x00, 0x10, 0x20, 0x30, 0x40, 0x50, 0x60, 0x70, 0x80, 0x90, 0xA0, 0xB0, 0xC0, 0xD0, 0xE0, 0xF0] = .ok [0x63, 0xCA, 0xB7, 0x04, 0x09, 0x53, 0xD0, 0x51, 0xCD, 0x60, 0xE0, 0xE7, 0xBA, 0x70, 0xE1, 0x8C] := by decide +kernel
  have e2 : runOps shiftRows128Ops none ([0x63, 0xCA, 0xB7, 0x04, 0x09, 0x53, 0xD0, 0x51, 0xCD, 0x60, 0xE0, 0xE7, 0xBA, 0x70, 0xE1, 0x8C] : List Byte) = .ok [0x63, 0x53, 0xE0, 0x8C, 0x09, 0x60, 0xE1, 0x04, 0xCD, 0x70, 0xB7, 0x51, 0xBA, 0xCA, 0xD0, 0xE7] := by decide +kernel
  have e3 : mixColumns [0x63, 0x53, 0xE0, 0x8C, 0x09, 0x60, 0xE1, 0x04, 0xCD, 0x70, 0xB7, 0x51, 0xBA, 0xCA, 0xD0, 0xE7] = .ok [0x5F, 0x72, 0x64, 0x15, 0x57, 0xF5, 0xBC, 0x92, 0xF7, 0xBE, 0x3B, 0x29, 0x1D, 0xB9, 0xF9, 0x1A] := by decide +kernel
  have e4 : keyAddition fipsRk24 (1 * (16 / 4)) [0x5F, 0x72, 0x64, 0x15, 0x57, 0xF5, 0xBC, 0x92, 0xF7, 0xBE, 0x3B, 0x29, 0x1D, 0xB9, 0xF9, 0x1A] = .ok [0x4F, 0x63, 0x76, 0x06, 0x43, 0xE0, 0xAA, 0x85, 0xAF, 0xF8, 0xC9, 0xD0, 0x41, 0xFA, 0x0D, 0xE4] := by decide +kernel
  have e5 : substitution [0x4F, 0x63, 0x76, 0x06, 0x43, 0xE0, 0xAA, 0x85, 0xAF, 0xF8, 0xC9, 0xD0, 0x41, 0xFA, 0x0D, 0xE4] = .ok [0x84, 0xFB, 0x38, 0x6F, 0x1A, 0xE1, 0xAC, 0x97, 0x79, 0x41, 0xDD, 0x70, 0x83, 0x2D, 0xD7, 0x69] := by decide +kernel
  have e6 : runOps shiftRows128Ops none ([0x84, 0xFB, 0x38, 0x6F, 0x1A, 0xE1, 0xAC, 0x97, 0x79, 0x41, 0xDD, 0x70, 0x83, 0x2D, 0xD7, 0x69] : List Byte) = .ok [0x84, 0xE1, 0xDD, 0x69, 0x1A, 0x41, 0xD7, 0x6F, 0x79, 0x2D, 0x38, 0x97, 0x83, 0xFB, 0xAC, 0x70] := by decide +kernel
  have e7 : mixColumns [0x84, 0xE1, 0xDD, 0x69, 0x1A, 0x41, 0xD7, 0x6F, 0x79, 0x2D, 0x38, 0x97, 0x83, 0xFB, 0xAC, 0x70] = .ok [0x9F, 0x48, 0x7F, 0x79, 0x4F, 0x95, 0x5F, 0x66, 0x2A, 0xFC, 0x86, 0xAB, 0xD7, 0xF1, 0xAB, 0x29] := by decide +kernel
  have e8 : keyAddition fipsRk24 (2 * (16 / 4)) [0x9F, 0x48, 0x7F, 0x79, 0x4F, 0x95, 0x5F, 0x66, 0x2A, 0xFC, 0x86, 0xAB, 0xD7, 0xF1, 0xAB, 0x29] = .ok [0xCB, 0x02, 0x81, 0x8C, 0x17, 0xD2, 0xAF, 0x9C, 0x62, 0xAA, 0x64, 0x42, 0x8B, 0xB2, 0x5F, 0xD7] := by decide +kernel
  have e9 : substitution [0xCB, 0x02, 0x81, 0x8C, 0x17, 0xD2, 0xAF, 0x9C, 0x62, 0xAA, 0x64, 0x42, 0x8B, 0xB2, 0x5F, 0xD7] = .ok [0x1F, 0x77, 0x0C, 0x64, 0xF0, 0xB5, 0x79, 0xDE, 0xAA, 0xAC, 0x43, 0x2C, 0x3D, 0x37, 0xCF, 0x0E] := by decide +kernel
  have e10 : runOps shiftRows128Ops none ([0x1F, 0x77, 0x0C, 0x64, 0xF0, 0xB5, 0x79, 0xDE, 0xAA, 0xAC, 0x43, 0x2C, 0x3D, 0x37, 0xCF, 0x0E] : List Byte) = .ok [0x1F, 0xB5, 0x43, 0x0E, 0xF0, 0xAC, 0xCF, 0x64, 0xAA, 0x37, 0x0C, 0xDE, 0x3D, 0x77, 0x79, 0x2C] := by decide +kernel
  have e11 : mixColumns [0x1F, 0xB5, 0x43, 0x0E, 0xF0, 0xAC, 0xCF, 0x64, 0xAA, 0x37, 0x0C, 0xDE, 0x3D, 0x77, 0x79, 0x2C] = .ok [0xB7, 0xA5, 0x3E, 0xCB, 0xBF, 0x9D, 0x75, 0xA0, 0xC4, 0x0E, 0xFC, 0x79, 0xB6, 0x74, 0xCC, 0x11] := by decide +kernel
  have e12 : keyAddition fipsRk24 (3 * (16 / 4)) [0xB7, 0xA5, 0x3E, 0xCB, 0xBF, 0x9D, 0x75, 0xA0, 0xC4, 0x0E, 0xFC, 0x79, 0xB6, 0x74, 0xCC, 0x11] = .ok [0xF7, 0x5C, 0x77, 0x78, 0xA3, 0x27, 0xC8, 0xED, 0x8C, 0xFE, 0xBF, 0xC1, 0xA6, 0xC3, 0x7F, 0x53] := by decide +kernel
  have e13 : substitution [0xF7, 0x5C, 0x77, 0x78, 0xA3, 0x27, 0xC8, 0xED, 0x8C, 0xFE, 0xBF, 0xC1, 0xA6, 0xC3, 0x7F, 0x53] = .ok [0x68, 0x4A, 0xF5, 0xBC, 0x0A, 0xCC, 0xE8, 0x55, 0x64, 0xBB, 0x08, 0x78, 0x24, 0x2E, 0xD2, 0xED] := by decide +kernel
  have e14 : runOps shiftRows128Ops none ([0x68, 0x4A, 0xF5, 0xBC, 0x0A, 0xCC, 0xE8, 0x55, 0x64, 0xBB, 0x08, 0x78, 0x24, 0x2E, 0xD2, 0xED] : List Byte) = .ok [0x68, 0xCC, 0x08, 0xED, 0x0A, 0xBB, 0xD2, 0xBC, 0x64, 0x2E, 0xF5, 0x55, 0x24, 0x4A, 0xE8, 0x78] := by decide +kernel
  have e15 : mixColumns [0x68, 0xCC, 0x08, 0xED, 0x0A, 0xBB, 0xD2, 0xBC, 0x64, 0x2E, 0xF5, 0x55, 0x24, 0x4A, 0xE8, 0x78] = .ok [0x7A, 0x1E, 0x98, 0xBD, 0xAC, 0xB6, 0xD1, 0x14, 0x1A, 0x69, 0x44, 0xDD, 0x06, 0xEB, 0x2D, 0x3E] := by decide +kernel
  have e16 : keyAddition fipsRk24 (4 * (16 / 4)) [0x7A, 0x1E, 0x98, 0xBD, 0xAC, 0xB6, 0xD1, 0x14, 0x1A, 0x69, 0x44, 0xDD, 0x06, 0xEB, 0x2D, 0x3E] = .ok [0x22, 0xFF, 0xC9, 0x16, 0xA8, 0x14, 0x74, 0x41, 0x64, 0x96, 0xF1, 0x9C, 0x64, 0xAE, 0x25, 0x32] := by decide +kernel
  have e17 : substitution [0x22, 0xFF, 0xC9, 0x16, 0xA8, 0x14, 0x74, 0x41, 0x64, 0x96, 0xF1, 0x9C, 0x64, 0xAE, 0x25, 0x32] = .ok [0x93, 0x16, 0xDD, 0x47, 0xC2, 0xFA, 0x92, 0x83, 0x43, 0x90, 0xA1, 0xDE, 0x43, 0xE4, 0x3F, 0x23] := by decide +kernel
  have e18 : runOps shiftRows128Ops none ([0x93, 0x16, 0xDD, 0x47, 0xC2, 0xFA, 0x92, 0x83, 0x43, 0x90, 0xA1, 0xDE, 0x43, 0xE4, 0x3F, 0x23] : List Byte) = .ok [0x93, 0xFA, 0xA1, 0x23, 0xC2, 0x90, 0x3F, 0x47, 0x43, 0xE4, 0xDD, 0x83, 0x43, 0x16, 0x92, 0xDE] := by decide +kernel
  have e19 : mixColumns [0x93, 0xFA, 0xA1, 0x23, 0xC2, 0x90, 0x3F, 0x47, 0x43, 0xE4, 0xDD, 0x83, 0x43, 0x16, 0x92, 0xDE] = .ok [0xAA, 0xA7, 0x55, 0xB3, 0x4C, 0xFF, 0xE5, 0x7C, 0xEF, 0x6F, 0x98, 0xE1, 0xF0, 0x1C, 0x13, 0xE6] := by decide +kernel
  have e20 : keyAddition fipsRk24 (5 * (16 / 4)) [0xAA, 0xA7, 0x55, 0xB3, 0x4C, 0xFF, 0xE5, 0x7C, 0xEF, 0x6F, 0x98, 0xE1, 0xF0, 0x1C, 0x13, 0xE6] = .ok [0x80, 0x12, 0x1E, 0x07, 0x76, 0xFD, 0x1D, 0x8A, 0x8D, 0x8C, 0x31, 0xBC, 0x96, 0x5D, 0x1F, 0xEE] := by decide +kernel
  have e21 : substitution [0x80, 0x12, 0x1E, 0x07, 0x76, 0xFD, 0x1D, 0x8A, 0x8D, 0x8C, 0x31, 0xBC, 0x96, 0x5D, 0x1F, 0xEE] = .ok [0xCD, 0xC9, 0x72, 0xC5, 0x38, 0x54, 0xA4, 0x7E, 0x5D, 0x64, 0xC7, 0x65, 0x90, 0x4C, 0xC0, 0x28] := by decide +kernel
  have e22 : runOps shiftRows128Ops none ([0xCD, 0xC9, 0x72, 0xC5, 0x38, 0x54, 0xA4, 0x7E, 0x5D, 0x64, 0xC7, 0x65, 0x90, 0x4C, 0xC0, 0x28] : List Byte) = .ok [0xCD, 0x54, 0xC7, 0x28, 0x38, 0x64, 0xC0, 0xC5, 0x5D, 0x4C, 0x72, 0x7E, 0x90, 0xC9, 0xA4, 0x65] := by decide +kernel
  have e23 : mixColumns [0xCD, 0x54, 0xC7, 0x28, 0x38, 0x64, 0xC0, 0xC5, 0x5D, 0x4C, 0x72, 0x7E, 0x90, 0xC9, 0xA4, 0x65] = .ok [0x92, 0x1F, 0x74, 0x8F, 0xD9, 0x6E, 0x93, 0x7D, 0x62, 0x2D, 0x77, 0x25, 0xBA, 0x8B, 0xA5, 0x0C] := by decide +kernel
  have e24 : keyAddition fipsRk24 (6 * (16 / 4)) [0x92, 0x1F, 0x74, 0x8F, 0xD9, 0x6E, 0x93, 0x7D, 0x62, 0x2D, 0x77, 0x25, 0xBA, 0x8B, 0xA5, 0x0C] = .ok [0x67, 0x1E, 0xF1, 0xFD, 0x4E, 0x2A, 0x1E, 0x03, 0xDF, 0xDC, 0xB1, 0xEF, 0x3D, 0x78, 0x9B, 0x30] := by decide +kernel
  have e25 : substitution [0x67, 0x1E, 0xF1, 0xFD, 0x4E, 0x2A, 0x1E, 0x03, 0xDF, 0xDC, 0xB1, 0xEF, 0x3D, 0x78, 0x9B, 0x30] = .ok [0x85, 0x72, 0xA1, 0x54, 0x2F, 0xE5, 0x72, 0x7B, 0x9E, 0x86, 0xC8, 0xDF, 0x27, 0xBC, 0x14, 0x04] := by decide +kernel
  have e26 : runOps shiftRows128Ops none ([0x85, 0x72, 0xA1, 0x54, 0x2F, 0xE5, 0x72, 0x7B, 0x9E, 0x86, 0xC8, 0xDF, 0x27, 0xBC, 0x14, 0x04] : List Byte) = .ok [0x85, 0xE5, 0xC8, 0x04, 0x2F, 0x86, 0x14, 0x54, 0x9E, 0xBC, 0xA1, 0x7B, 0x27, 0x72, 0x72, 0xDF] := by decide +kernel
  have e27 : mixColumns [0x85, 0xE5, 0xC8, 0x04, 0x2F, 0x86, 0x14, 0x54, 0x9E, 0xBC, 0xA1, 0x7B, 0x27, 0x72, 0x72, 0xDF] = .ok [0xE9, 0x13, 0xE7, 0xB1, 0x8F, 0x50, 0x7D, 0x4B, 0x22, 0x7E, 0xF6, 0x52, 0x75, 0x8A, 0xCB, 0xCC] := by decide +kernel
  have e28 : keyAddition fipsRk24 (7 * (16 / 4)) [0xE9, 0x13, 0xE7, 0xB1, 0x8F, 0x50, 0x7D, 0x4B, 0x22, 0x7E, 0xF6, 0x52, 0x75, 0x8A, 0xCB, 0xCC] = .ok [0x0C, 0x03, 0x70, 0xD0, 0x0C, 0x01, 0xE6, 0x22, 0x16, 0x6B, 0x8A, 0xCC, 0xD6, 0xDB, 0x3A, 0x2C] := by decide +kernel
  have e29 : substitution [0x0C, 0x03, 0x70, 0xD0, 0x0C, 0x01, 0xE6, 0x22, 0x16, 0x6B, 0x8A, 0xCC, 0xD6, 0xDB, 0x3A, 0x2C] = .ok [0xFE, 0x7B, 0x51, 0x70, 0xFE, 0x7C, 0x8E, 0x93, 0x47, 0x7F, 0x7E, 0x4B, 0xF6, 0xB9, 0x80, 0x71] := by decide +kernel
  have e30 : runOps shiftRows128Ops none ([0xFE, 0x7B, 0x51, 0x70, 0xFE, 0x7C, 0x8E, 0x93, 0x47, 0x7F, 0x7E, 0x4B, 0xF6, 0xB9, 0x80, 0x71] : List Byte) = .ok [0xFE, 0x7C, 0x7E, 0x71, 0xFE, 0x7F, 0x80, 0x70, 0x47, 0xB9, 0x51, 0x93, 0xF6, 0x7B, 0x8E, 0x4B] := by decide +kernel
  have e31 : mixColumns [0xFE, 0x7C, 0x7E, 0x71, 0xFE, 0x7F, 0x80, 0x70, 0x47, 0xB9, 0x51, 0x93, 0xF6, 0x7B, 0x8E, 0x4B] = .ok [0x6C, 0xF5, 0xED, 0xF9, 0x96, 0xEB, 0x0A, 0x06, 0x9C, 0x4E, 0xF2, 0x1C, 0xBF, 0xC2, 0x57, 0x62] := by decide +kernel
  have e32 : keyAddition fipsRk24 (8 * (16 / 4)) [0x6C, 0xF5, 0xED, 0xF9, 0x96, 0xEB, 0x0A, 0x06, 0x9C, 0x4E, 0xF2, 0x1C, 0xBF, 0xC2, 0x57, 0x62] = .ok [0x72, 0x55, 0xDA, 0xD3, 0x0F, 0xB8, 0x03, 0x10, 0xE0, 0x0D, 0x6C, 0x6B, 0x40, 0xD0, 0x52, 0x7C] := by decide +kernel
  have e33 : substitution [0x72, 0x55, 0xDA, 0xD3, 0x0F, 0xB8, 0x03, 0x10, 0xE0, 0x0D, 0x6C, 0x6B, 0x40, 0xD0, 0x52, 0x7C] = .ok [0x40, 0xFC, 0x57, 0x66, 0x76, 0x6C, 0x7B, 0xCA, 0xE1, 0xD7, 0x50, 0x7F, 0x09, 0x70, 0x00, 0x10] := by decide +kernel
  have e34 : runOps shiftRows128Ops none ([0x40, 0xFC, 0x57, 0x66, 0x76, 0x6C, 0x7B, 0xCA, 0xE1, 0xD7, 0x50, 0x7F, 0x09, 0x70, 0x00, 0x10] : List Byte) = .ok [0x40, 0x6C, 0x50, 0x10, 0x76, 0xD7, 0x00, 0x66, 0xE1, 0x70, 0x57, 0xCA, 0x09, 0xFC, 0x7B, 0x7F] := by decide +kernel
  have e35 : mixColumns [0x40, 0x6C, 0x50, 0x10, 0x76, 0xD7, 0x00, 0x66, 0xE1, 0x70, 0x57, 0xCA, 0x09, 0xFC, 0x7B, 0x7F] = .ok [0x74, 0x78, 0xBC, 0xDC, 0xE8, 0xA5, 0x0B, 0x81, 0xD4, 0x32, 0x7A, 0x90, 0x09, 0x18, 0x82, 0x62] := by decide +kernel
  have e36 : keyAddition fipsRk24 (9 * (16 / 4)) [0x74, 0x78, 0xBC, 0xDC, 0xE8, 0xA5, 0x0B, 0x81, 0xD4, 0x32, 0x7A, 0x90, 0x09, 0x18, 0x82, 0x62] = .ok [0xA9, 0x06, 0xB2, 0x54, 0x96, 0x8A, 0xF4, 0xE9, 0xB4, 0xBD, 0xB2, 0xD2, 0xF0, 0xC4, 0x43, 0x36] := by decide +kernel
  have e37 : substitution [0xA9, 0x06, 0xB2, 0x54, 0x96, 0x8A, 0xF4, 0xE9, 0xB4, 0xBD, 0xB2, 0xD2, 0xF0, 0xC4, 0x43, 0x36] = .ok [0xD3, 0x6F, 0x37, 0x20, 0x90, 0x7E, 0xBF, 0x1E, 0x8D, 0x7A, 0x37, 0xB5, 0x8C, 0x1C, 0x1A, 0x05] := by decide +kernel
  have e38 : runOps shiftRows128Ops none ([0xD3, 0x6F, 0x37, 0x20, 0x90, 0x7E, 0xBF, 0x1E, 0x8D, 0x7A, 0x37, 0xB5, 0x8C, 0x1C, 0x1A, 0x05] : List Byte) = .ok [0xD3, 0x7E, 0x37, 0x05, 0x90, 0x7A, 0x1A, 0x20, 0x8D, 0x1C, 0x37, 0x1E, 0x8C, 0x6F, 0xBF, 0xB5] := by decide +kernel
  have e39 : mixColumns [0xD3, 0x7E, 0x37, 0x05, 0x90, 0x7A, 0x1A, 0x20, 0x8D, 0x1C, 0x37, 0x1E, 0x8C, 0x6F, 0xBF, 0xB5] = .ok [0x0D, 0x73, 0xCC, 0x2D, 0x8F, 0x6A, 0xBE, 0x8B, 0x0C, 0xF2, 0xDD, 0x9B, 0xB8, 0x3D, 0x42, 0x2E] := by decide +kernel
  have e40 : keyAddition fipsRk24 (10 * (16 / 4)) [0x0D, 0x73, 0xCC, 0x2D, 0x8F, 0x6A, 0xBE, 0x8B, 0x0C, 0xF2, 0xDD, 0x9B, 0xB8, 0x3D, 0x42, 0x2E] = .ok [0x88, 0xEC, 0x93, 0x0E, 0xF5, 0xE7, 0xE4, 0xB6, 0xCC, 0x32, 0xF4, 0xC9, 0x06, 0xD2, 0x94, 0x14] := by decide +kernel
  have e41 : substitution [0x88, 0xEC, 0x93, 0x0E, 0xF5, 0xE7, 0xE4, 0xB6, 0xCC, 0x32, 0xF4, 0xC9, 0x06, 0xD2, 0x94, 0x14] = .ok [0xC4, 0xCE, 0xDC, 0xAB, 0xE6, 0x94, 0x69, 0x4E, 0x4B, 0x23, 0xBF, 0xDD, 0x6F, 0xB5, 0x22, 0xFA] := by decide +kernel
  have e42 : runOps shiftRows128Ops none ([0xC4, 0xCE, 0xDC, 0xAB, 0xE6, 0x94, 0x69, 0x4E, 0x4B, 0x23, 0xBF, 0xDD, 0x6F, 0xB5, 0x22, 0xFA] : List Byte) = .ok [0xC4, 0x94, 0xBF, 0xFA, 0xE6, 0x23, 0x22, 0xAB, 0x4B, 0xB5, 0xDC, 0x4E, 0x6F, 0xCE, 0x69, 0xDD] := by decide +kernel
  have e43 : mixColumns [0xC4, 0x94, 0xBF, 0xFA, 0xE6, 0x23, 0x22, 0xAB, 0x4B, 0xB5, 0xDC, 0x4E, 0x6F, 0xCE, 0x69, 0xDD] = .ok [0x71, 0xD7, 0x20, 0x93, 0x3B, 0x6D, 0x67, 0x7D, 0xC0, 0x0B, 0x8F, 0x28, 0x23, 0x8E, 0x0F, 0xB7] := by decide +kernel
  have e44 : keyAddition fipsRk24 (11 * (16 / 4)) [0x71, 0xD7, 0x20, 0x93, 0x3B, 0x6D, 0x67, 0x7D, 0xC0, 0x0B, 0x8F, 0x28, 0x23, 0x8E, 0x0F, 0xB7] = .ok [0xAF, 0xB7, 0x3E, 0xEB, 0x1C, 0xD1, 0xB8, 0x51, 0x62, 0x28, 0x0F, 0x27, 0xFB, 0x20, 0xD5, 0x85] := by decide +kernel
  have e45 : substitution [0xAF, 0xB7, 0x3E, 0xEB, 0x1C, 0xD1, 0xB8, 0x51, 0x62, 0x28, 0x0F, 0x27, 0xFB, 0x20, 0xD5, 0x85] = .ok [0x79, 0xA9, 0xB2, 0xE9, 0x9C, 0x3E, 0x6C, 0xD1, 0xAA, 0x34, 0x76, 0xCC, 0x0F, 0xB7, 0x03, 0x97] := by decide +kernel
  have e46 : runOps shiftRows128Ops none ([0x79, 0xA9, 0xB2, 0xE9, 0x9C, 0x3E, 0x6C, 0xD1, 0xAA, 0x34, 0x76, 0xCC, 0x0F, 0xB7, 0x03, 0x97] : List Byte) = .ok [0x79, 0x3E, 0x76, 0x97, 0x9C, 0x34, 0x03, 0xE9, 0xAA, 0xB7, 0xB2, 0xD1, 0x0F, 0xA9, 0x6C, 0xCC] := by decide +kernel
  have e47 : keyAddition fipsRk24 (12 * (16 / 4)) [0x79, 0x3E, 0x76, 0x97, 0x9C, 0x34, 0x03, 0xE9, 0xAA, 0xB7, 0xB2, 0xD1, 0x0F, 0xA9, 0x6C, 0xCC] = .ok [0xDD, 0xA9, 0x7C, 0xA4, 0x86, 0x4C, 0xDF, 0xE0, 0x6E, 0xAF, 0x70, 0xA0, 0xEC, 0x0D, 0x71, 0x91] := by decide +kernel
  have e : copy fipsPlain 0 (List.replicate 16 0) 0 16 = .ok fipsPlain := by decide +kernel
  have e' : copy ([0xDD, 0xA9, 0x7C, 0xA4, 0x86, 0x4C, 0xDF, 0xE0, 0x6E, 0xAF, 0x70, 0xA0, 0xEC, 0x0D, 0x71, 0x91] : List Byte) 0 (List.replicate 16 0) 0 16 = .ok [0xDD, 0xA9, 0x7C, 0xA4, 0x86, 0x4C, 0xDF, 0xE0, 0x6E, 0xAF, 0x70, 0xA0, 0xEC, 0x0D, 0x71, 0x91] := by decide +kernel
  rw [encrypt128, forward, e, ok_bind, e0, ok_bind]
  simp only [show 12 - 1 = 11 from rfl, loopN, Nat.reduceAdd]
  rw [e1, ok_bind]
  rw [e2, ok_bind]
  rw [e3, ok_bind]
  rw [e4, ok_bind]
  rw [e5, ok_bind]
  rw [e6, ok_bind]
  rw [e7, ok_bind]
  rw [e8, ok_bind]
  rw [e9, ok_bind]
  rw [e10, ok_bind]
  rw [e11, ok_bind]
  rw [e12, ok_bind]
  rw [e13, ok_bind]
  rw [e14, ok_bind]
  rw [e15, ok_bind]
  rw [e16, ok_bind]
  rw [e17, ok_bind]
  rw [e18, ok_bind]
  rw [e19, ok_bind]
  rw [e20, ok_bind]
  rw [e21, ok_bind]
  rw [e22, ok_bind]
  rw [e23, ok_bind]
  rw [e24, ok_bind]
  rw [e25, ok_bind]
  rw [e26, ok_bind]
  rw [e27, ok_bind]
  rw [e28, ok_bind]
  rw [e29, ok_bind]
  rw [e30, ok_bind]
  rw [e31, ok_bind]
  rw [e32, ok_bind]
  rw [e33, ok_bind]
  rw [e34, ok_bind]
  rw [e35, ok_bind]
  rw [e36, ok_bind]
  rw [e37, ok_bind]
  rw [e38, ok_bind]
  rw [e39, ok_bind]
  rw [e40, ok_bind]
  rw [e41, ok_bind]
  rw [e42, ok_bind]
  rw [e43, ok_bind]
  rw [e44, ok_bind, ok_bind]
  rw [e45, ok_bind]
  rw [e46, ok_bind]
  rw [e47, ok_bind]
  exact e'

/-- Appendix C.2: the reference cipher, hence (C55_encrypt) both builds. -/
theorem fips_c2 : onBytes (Aes.aes fipsKey24) fipsPlain = [0xDD, 0xA9, 0x7C, 0xA4, 0x86, 0x4C, 0xDF, 0xE0, 0x6E, 0xAF, 0x70, 0xA0, 0xEC, 0x0D, 0x71, 0x91] :=
  aes_of_run (by decide) fips_expand_24 (by decide) fips_encrypt_24

/-- The 32-byte key 00 01 02 …. -/
def fipsKey32 : List Byte := [0x00, 0x01, 0x02, 0x03, 0x04, 0x05, 0x06, 0x07, 0x08, 0x09, 0x0A, 0x0B, 0x0C, 0x0D, 0x0E, 0x0F, 0x10, 0x11, 0x12, 0x13, 0x14, 0x15, 0x16, 0x17, 0x18, 0x19, 0x1A, 0x1B, 0x1C, 0x1D, 0x1E, 0x1F]

def fipsRk32 : List Word := [0x00010203, 0x04050607, 0x08090A0B, 0x0C0D0E0F, 0x10111213, 0x14151617, 0x18191A1B, 0x1C1D1E1F, 0xA573C29F, 0xA176C498, 0xA97FCE93, 0xA572C09C, 0x1651A8CD, 0x0244BEDA, 0x1A5DA4C1, 0x0640BADE, 0xAE87DFF0, 0x0FF11B68, 0xA68ED5FB, 0x03FC1567, 0x6DE1F148, 0x6FA54F92, 0x75F8EB53, 0x73B8518D, 0xC656827F, 0xC9A79917, 0x6F294CEC, 0x6CD5598B, 0x3DE23A75, 0x524775E7, 0x27BF9EB4, 0x5407CF39, 0x0BDC905F, 0xC27B0948, 0xAD5245A4, 0xC1871C2F, 0x45F5A660, 0x17B2D387, 0x300D4D33, 0x640A820A, 0x7CCFF71C, 0xBEB4FE54, 0x13E6BBF0, 0xD261A7DF, 0xF01AFAFE, 0xE7A82979, 0xD7A5644A, 0xB3AFE640, 0x2541FE71, 0x9BF50025, 0x8813BBD5, 0x5A721C0A, 0x4E5A6699, 0xA9F24FE0, 0x7E572BAA, 0xCDF8CDEA, 0x24FC79CC, 0xBF0979E9, 0x371AC23C, 0x6D68DE36]

theorem fips_expand_32 : standardExpand fipsKey32 = .ok (14, fipsRk32) := by
  have h0 : loadKey 8 fipsKey32 [0x00000000, 0x00000000, 0x00000000, 0x00000000, 0x00000000, 0x00000000, 0x00000000, 0x00000000, 0x00000000, 0x00000000, 0x00000000, 0x00000000, 0x00000000, 0x00000000, 0x00000000, 0x00000000, 0x00000000, 0x00000000, 0x00000000, 0x00000000, 0x00000000, 0x00000000, 0x00000000, 0x00000000, 0x00000000, 0x00000000, 0x00000000, 0x00000000, 0x00000000, 0x00000000, 0x00000000, 0x00000000, 0x00000000, 0x00000000, 0x00000000, 0x00000000, 0x00000000, 0x00000000, 0x00000000, 0x00000000, 0x00000000, 0x00000000, 0x00000000, 0x00000000, 0x00000000, 0x00000000, 0x00000000, 0x00000000, 0x00000000, 0x00000000, 0x00000000, 0x00000000, 0x00000000, 0x00000000, 0x00000000, 0x00000000, 0x00000000, 0x00000000, 0x00000000, 0x00000000] = .ok [0x00010203, 0x04050607, 0x08090A0B, 0x0C0D0E0F, 0x10111213, 0x14151617, 0x18191A1B, 0x1C1D1E1F, 0x00000000, 0x00000000, 0x00000000, 0x00000000, 0x00000000, 0x00000000, 0x00000000, 0x00000000, 0x00000000, 0x00000000, 0x00000000, 0x00000000, 0x00000000, 0x00000000, 0x00000000, 0x00000000, 0x00000000, 0x00000000, 0x00000000, 0x00000000, 0x00000000, 0x00000000, 0x00000000, 0x00000000, 0x00000000, 0x00000000, 0x00000000, 0x00000000, 0x00000000, 0x00000000, 0x00000000, 0x00000000, 0x00000000, 0x00000000, 0x00000000, 0x00000000, 0x00000000, 0x00000000, 0x00000000, 0x00000000, 0x00000000, 0x00000000, 0x00000000, 0x00000000, 0x00000000, 0x00000000, 0x00000000, 0x00000000, 0x00000000, 0x00000000, 0x00000000, 0x00000000] := by decide +kernel
  have h1 : expandRot 8 8 1 [0x00010203, 0x04050607, 0x08090A0B, 0x0C0D0E0F, 0x10111213, 0x14151617, 0x18191A1B, 0x1C1D1E1F, 0x00000000, 0x00000000, 0x00000000, 0x00000000, 0x00000000, 0x00000000, 0x00000000, 0x00000000, 0x00000000, 0x00000000, 0x00000000, 0x00000000, 0x00000000, 0x00000000, 0x00000000, 0x00000000, 0x00000000, 0x00000000, 0x00000000, 0x00000000, 0x00000000, 0x00000000, 0x00000000, 0x00000000, 0x00000000, 0x00000000, 0x00000000, 0x00000000, 0x00000000, 0x00000000, 0x00000000, 0x00000000, 0x00000000, 0x00000000, 0x00000000, 0x00000000, 0x00000000, 0x00000000, 0x00000000, 0x00000000, 0x00000000, 0x00000000, 0x00000000, 0x00000000, 0x00000000, 0x00000000, 0x00000000, 0x00000000, 0x00000000, 0x00000000, 0x00000000, 0x00000000] = .ok [0x00010203, 0x04050607, 0x08090A0B, 0x0C0D0E0F, 0x10111213, 0x14151617, 0x18191A1B, 0x1C1D1E1F, 0xA573C29F, 0xA176C498, 0xA97FCE93, 0xA572C09C, 0x00000000, 0x00000000, 0x00000000, 0x00000000, 0x00000000, 0x00000000, 0x00000000, 0x00000000, 0x00000000, 0x00000000, 0x00000000, 0x00000000, 0x00000000, 0x00000000, 0x00000000, 0x00000000, 0x00000000, 0x00000000, 0x00000000, 0x00000000, 0x00000000, 0x00000000, 0x00000000, 0x00000000, 0x00000000, 0x00000000, 0x00000000, 0x00000000, 0x00000000, 0x00000000, 0x00000000, 0x00000000, 0x00000000, 0x00000000, 0x00000000, 0x00000000, 0x00000000, 0x00000000, 0x00000000, 0x00000000, 0x00000000, 0x00000000, 0x00000000, 0x00000000, 0x00000000, 0x00000000, 0x00000000, 0x00000000] := by decide +kernel
  have h2 : expandSub 12 8 [0x00010203, 0x04050607, 0x08090A0B, 0x0C0D0E0F, 0x10111213, 0x14151617, 0x18191A1B, 0x1C1D1E1F, 0xA573C29F, 0xA176C498, 0xA97FCE93, 0xA572C09C, 0x00000000, 0x00000000, 0x00000000, 0x00000000, 0x00000000, 0x00000000, 0x00000000, 0x00000000, 0x00000000, 0x00000000, 0x00000000, 0x00000000, 0x00000000, 0x00000000, 0x00000000, 0x00000000, 0x00000000, 0x00000000, 0x00000000, 0x00000000, 0x00000000, 0x00000000, 0x00000000, 0x00000000, 0x00000000, 0x00000000, 0x00000000, 0x00000000, 0x00000000, 0x00000000, 0x00000000, 0x00000000, 0x00000000, 0x00000000, 0x00000000, 0x00000000, 0x00000000, 0x00000000, 0x00000000, 0x00000000, 0x00000000, 0x00000000, 0x00000000, 0x00000000, 0x00000000, 0x00000000, 0x00000000, 0x00000000] = .ok [0x00010203, 0x04050607, 0x08090A0B, 0x0C0D0E0F, 0x10111213, 0x14151617, 0x18191A1B, 0x1C1D1E1F, 0xA573C29F, 0xA176C498, 0xA97FCE93, 0xA572C09C, 0x1651A8CD, 0x0244BEDA, 0x1A5DA4C1, 0x0640BADE, 0x00000000, 0x00000000, 0x00000000, 0x00000000, 0x00000000, 0x00000000, 0x00000000, 0x00000000, 0x00000000, 0x00000000, 0x00000000, 0x00000000, 0x00000000, 0x00000000, 0x00000000, 0x00000000, 0x00000000, 0x00000000, 0x00000000, 0x00000000, 0x00000000, 0x00000000, 0x00000000, 0x00000000, 0x00000000, 0x00000000, 0x00000000, 0x00000000, 0x00000000, 0x00000000, 0x00000000, 0x00000000, 0x00000000, 0x00000000, 0x00000000, 0x00000000, 0x00000000, 0x00000000, 0x00000000, 0x00000000, 0x00000000, 0x00000000, 0x00000000, 0x00000000] := by decide +kernel
  have h3 : expandRot 16 8 2 [0x00010203, 0x04050607, 0x08090A0B, 0x0C0D0E0F, 0x10111213, 0x14151617, 0x18191A1B, 0x1C1D1E1F, 0xA573C29F, 0xA176C498, 0xA97FCE93, 0xA572C09C, 0x1651A8CD, 0x0244BEDA, 0x1A5DA4C1, 0x0640BADE, 0x00000000, 0x00000000, 0x00000000, 0x00000000, 0x00000000, 0x00000000, 0x00000000, 0x00000000, 0x00000000, 0x00000000, 0x00000000, 0x00000000, 0x00000000, 0x00000000, 0x00000000, 0x00000000, 0x00000000, 0x00000000, 0x00000000, 0x00000000, 0x00000000, 0x00000000, 0x00000000, 0x00000000, 0x00000000, 0x00000000, 0x00000000, 0x00000000, 0x00000000, 0x00000000, 0x00000000, 0x00000000, 0x00000000, 0x00000000, 0x00000000, 0x00000000, 0x00000000, 0x00000000, 0x00000000, 0x00000000, 0x00000000, 0x00000000, 0x00000000, 0x00000000] = .ok [0x00010203, 0x04050607, 0x08090A0B, 0x0C0D0E0F, 0x10111213, 0x14151617, 0x18191A1B, 0x1C1D1E1F, 0xA573C29F, 0xA176C498, 0xA97FCE93, 0xA572C09C, 0x1651A8CD, 0x0244BEDA, 0x1A5DA4C1, 0x0640BADE, 0xAE87DFF0, 0x0FF11B68, 0xA68ED5FB, 0x03FC1567, 0x00000000, 0x00000000, 0x00000000, 0x00000000, 0x00000000, 0x00000000, 0x00000000, 0x00000000, 0x00000000, 0x00000000, 0x00000000, 0x00000000, 0x00000000, 0x00000000, 0x00000000, 0x00000000, 0x00000000, 0x00000000, 0x00000000, 0x00000000, 0x00000000, 0x00000000, 0x00000000, 0x00000000, 0x00000000, 0x00000000, 0x00000000, 0x00000000, 0x00000000, 0x00000000, 0x00000000, 0x00000000, 0x00000000, 0x00000000, 0x00000000, 0x00000000, 0x00000000, 0x00000000, 0x00000000, 0x00000000] := by decide +kernel
  have h4 : expandSub 20 8 [0x00010203, 0x04050607, 0x08090A0B, 0x0C0D0E0F, 0x10111213, 0x14151617, 0x18191A1B, 0x1C1D1E1F, 0xA573C29F, 0xA176C498, 0xA97FCE93, 0xA572C09C, 0x1651A8CD, 0x0244BEDA, 0x1A5DA4C1, 0x0640BADE, 0xAE87DFF0, 0x0FF11B68, 0xA68ED5FB, 0x03FC1567, 0x00000000, 0x00000000, 0x00000000, 0x00000000, 0x00000000, 0x00000000, 0x00000000, 0x00000000, 0x00000000, 0x00000000, 0x00000000, 0x00000000, 0x00000000, 0x00000000, 0x00000000, 0x00000000, 0x00000000, 0x00000000, 0x00000000, 0x00000000, 0x00000000, 0x00000000, 0x00000000, 0x00000000, 0x00000000, 0x00000000, 0x00000000, 0x00000000, 0x00000000, 0x00000000, 0x00000000, 0x00000000, 0x00000000, 0x00000000, 0x00000000, 0x00000000, 0x00000000, 0x00000000, 0x00000000, 0x00000000] = .ok [0x00010203, 0x04050607, 0x08090A0B, 0x0C0D0E0F, 0x10111213, 0x14151617, 0x18191A1B, 0x1C1D1E1F, 0xA573C29F, 0xA176C498, 0xA97FCE93, 0xA572C09C, 0x1651A8CD, 0x0244BEDA, 0x1A5DA4C1, 0x0640BADE, 0xAE87DFF0, 0x0FF11B68, 0xA68ED5FB, 0x03FC1567, 0x6DE1F148, 0x6FA54F92, 0x75F8EB53, 0x73B8518D, 0x00000000, 0x00000000, 0x00000000, 0x00000000, 0x00000000, 0x00000000, 0x00000000, 0x00000000, 0x00000000, 0x00000000, 0x00000000, 0x00000000, 0x00000000, 0x00000000, 0x00000000, 0x00000000, 0x00000000, 0x00000000, 0x00000000, 0x00000000, 0x00000000, 0x00000000, 0x00000000, 0x00000000, 0x00000000, 0x00000000, 0x00000000, 0x00000000, 0x00000000, 0x00000000, 0x00000000, 0x00000000, 0x00000000, 0x00000000, 0x00000000, 0x00000000] := by decide +kernel
  have h5 : expandRot 24 8 3 [0x00010203, 0x04050607, 0x08090A0B, 0x0C0D0E0F, 0x10111213, 0x14151617, 0x18191A1B, 0x1C1D1E1F, 0xA573C29F, 0xA176C498, 0xA97FCE93, 0xA572C09C, 0x1651A8CD, 0x0244BEDA, 0x1A5DA4C1, 0x0640BADE, 0xAE87DFF0, 0x0FF11B68, 0xA68ED5FB, 0x03FC1567, 0x6DE1F148, 0x6FA54F92, 0x75F8EB53, 0x73B8518D, 0x00000000, 0x00000000, 0x00000000, 0x00000000, 0x00000000, 0x00000000, 0x00000000, 0x00000000, 0x00000000, 0x00000000, 0x00000000, 0x00000000, 0x00000000, 0x00000000, 0x00000000, 0x00000000, 0x00000000, 0x00000000, 0x00000000, 0x00000000, 0x00000000, 0x00000000, 0x00000000, 0x00000000, 0x00000000, 0x00000000, 0x00000000, 0x00000000, 0x00000000, 0x00000000, 0x00000000, 0x00000000, 0x00000000, 0x00000000, 0x00000000, 0x00000000] = .ok [0x00010203, 0x04050607, 0x08090A0B, 0x0C0D0E0F, 0x10111213, 0x14151617, 0x18191A1B, 0x1C1D1E1F, 0xA573C29F, 0xA176C498, 0xA97FCE93, 0xA572C09C, 0x1651A8CD, 0x0244BEDA, 0x1A5DA4C1, 0x0640BADE, 0xAE87DFF0, 0x0FF11B68, 0xA68ED5FB, 0x03FC1567, 0x6DE1F148, 0x6FA54F92, 0x75F8EB53, 0x73B8518D, 0xC656827F, 0xC9A79917, 0x6F294CEC, 0x6CD5598B, 0x00000000, 0x00000000, 0x00000000, 0x00000000, 0x00000000, 0x00000000, 0x00000000, 0x00000000, 0x00000000, 0x00000000, 0x00000000, 0x00000000, 0x00000000, 0x00000000, 0x00000000, 0x00000000, 0x00000000, 0x00000000, 0x00000000, 0x00000000, 0x00000000, 0x00000000, 0x00000000, 0x00000000, 0x00000000, 0x00000000, 0x00000000, 0x00000000, 0x00000000, 0x00000000, 0x00000000, 0x00000000] := by decide +kernel
  have h6 : expandSub 28 8 [0x00010203, 0x04050607, 0x08090A0B, 0x0C0D0E0F, 0x10111213, 0x14151617, 0x18191A1B, 0x1C1D1E1F, 0xA573C29F, 0xA176C498, 0xA97FCE93, 0xA572C09C, 0x1651A8CD, 0x0244BEDA, 0x1A5DA4C1, 0x0640BADE, 0xAE87DFF0, 0x0FF11B68, 0xA68ED5FB, 0x03FC1567, 0x6DE1F148, 0x6FA54F92, 0x75F8EB53, 0x73B8518D, 0xC656827F, 0xC9A79917, 0x6F294CEC, 0x6CD5598B, 0x00000000, 0x00000000, 0x00000000, 0x00000000, 0x00000000, 0x00000000, 0x00000000, 0x00000000, 0x00000000, 0x00000000, 0x00000000, 0x00000000, 0x00000000, 0x00000000, 0x00000000, 0x00000000, 0x00000000, 0x00000000, 0x00000000, 0x00000000, 0x00000000, 0x00000000, 0x00000000, 0x00000000, 0x00000000, 0x00000000, 0x00000000, 0x00000000, 0x00000000, 0x00000000, 0x00000000, 0x00000000] = .ok [0x00010203, 0x04050607, 0x08090A0B, 0x0C0D0E0F, 0x10111213, 0x14151617, 0x18191A1B, 0x1C1D1E1F, 0xA573C29F, 0xA176C498, 0xA97FCE93, 0xA572C09C, 0x1651A8CD, 0x0244BEDA, 0x1A5DA4C1, 0x0640BADE, 0xAE87DFF0, 0x0FF11B68, 0xA68ED5FB, 0x03FC1567, 0x6DE1F148, 0x6FA54F92, 0x75F8EB53, 0x73B8518D, 0xC656827F, 0xC9A79917, 0x6F294CEC, 0x6CD5598B, 0x3DE23A75, 0x524775E7, 0x27BF9EB4, 0x5407CF39, 0x00000000, 0x00000000, 0x00000000, 0x00000000, 0x00000000, 0x00000000, 0x00000000, 0x00000000, 0x00000000, 0x00000000, 0x00000000, 0x00000000, 0x00000000, 0x00000000, 0x00000000, 0x00000000, 0x00000000, 0x00000000, 0x00000000, 0x00000000, 0x00000000, 0x00000000, 0x00000000, 0x00000000, 0x00000000, 0x00000000, 0x00000000, 0x00000000] := by decide +kernel
  have h7 : expandRot 32 8 4 [0x00010203, 0x04050607, 0x08090A0B, 0x0C0D0E0F, 0x10111213, 0x14151617, 0x18191A1B, 0x1C1D1E1F, 0xA573C29F, 0xA176C498, 0xA97FCE93, 0xA572C09C, 0x1651A8CD, 0x0244BEDA, 0x1A5DA4C1, 0x0640BADE, 0xAE87DFF0, 0x0FF11B68, 0xA68ED5FB, 0x03FC1567, 0x6DE1F148, 0x6FA54F92, 0x75F8EB53, 0x73B8518D, 0xC656827F, 0xC9A79917, 0x6F294CEC, 0x6CD5598B, 0x3DE23A75, 0x524775E7, 0x27BF9EB4, 0x5407CF39, 0x00000000, 0x00000000, 0x00000000, 0x00000000, 0x00000000, 0x00000000, 0x00000000, 0x00000000, 0x00000000, 0x00000000, 0x00000000, 0x00000000, 0x00000000, 0x00000000, 0x00000000, 0x00000000, 0x00000000, 0x00000000, 0x00000000, 0x00000000, 0x00000000, 0x00000000, 0x00000000, 0x00000000, 0x00000000, 0x00000000, 0x00000000, 0x00000000] = .ok [0x00010203, 0x04050607, 0x08090A0B, 0x0C0D0E0F, 0x10111213, 0x14151617, 0x18191A1B, 0x1C1D1E1F, 0xA573C29F, 0xA176C498, 0xA97FCE93, 0xA572C09C, 0x1651A8CD, 0x0244BEDA, 0x1A5DA4C1, 0x0640BADE, 0xAE87DFF0, 0x0FF11B68, 0xA68ED5FB, 0x03FC1567, 0x6DE1F148, 0x6FA54F92, 0x75F8EB53, 0x73B8518D, 0xC656827F, 0xC9A79917, 0x6F294CEC, 0x6CD5598B, 0x3DE23A75, 0x524775E7, 0x27BF9EB4, 0x5407CF39, 0x0BDC905F, 0xC27B0948, 0xAD5245A4, 0xC1871C2F, 0x00000000, 0x00000000, 0x00000000, 0x00000000, 0x00000000, 0x00000000, 0x00000000, 0x00000000, 0x00000000, 0x00000000, 0x00000000, 0x00000000, 0x00000000, 0x00000000, 0x00000000, 0x00000000, 0x00000000, 0x00000000, 0x00000000, 0x00000000, 0x00000000, 0x00000000, 0x00000000, 0x00000000] := by decide +kernel
  have h8 : expandSub 36 8 [0x00010203, 0x04050607, 0x08090A0B, 0x0C0D0E0F, 0x10111213, 0x14151617, 0x18191A1B, 0x1C1D1E1F, 0xA573C29F, 0xA176C498, 0xA97FCE93, 0xA572C09C, 0x1651A8CD, 0x0244BEDA, 0x1A5DA4C1, 0x0640BADE, 0xAE87DFF0, 0x0FF11B68, 0xA68ED5FB, 0x03FC1567, 0x6DE1F148, 0x6FA54F92, 0x75F8EB53, 0x73B8518D, 0xC656827F, 0xC9A79917, 0x6F294CEC, 0x6CD5598B, 0x3DE23A75, 0x524775E7, 0x27BF9EB4, 0x5407CF39, 0x0BDC905F, 0xC27B0948, 0xAD5245A4, 0xC1871C2F, 0x00000000, 0x00000000, 0x00000000, 0x00000000, 0x00000000, 0x00000000, 0x00000000, 0x00000000, 0x00000000, 0x00000000, 0x00000000, 0x00000000, 0x00000000, 0x00000000, 0x00000000, 0x00000000, 0x00000000, 0x00000000, 0x00000000, 0x00000000, 0x00000000, 0x00000000, 0x00000000, 0x00000000] = .ok [0x00010203, 0x04050607, 0x08090A0B, 0x0C0D0E0F, 0x10111213, 0x14151617, 0x18191A1B, 0x1C1D1E1F, 0xA573C29F, 0xA176C498, 0xA97FCE93, 0xA572C09C, 0x1651A8CD, 0x0244BEDA, 0x1A5DA4C1, 0x0640BADE, 0xAE87DFF0, 0x0FF11B68, 0xA68ED5FB, 0x03FC1567, 0x6DE1F148, 0x6FA54F92, 0x75F8EB53, 0x73B8518D, 0xC656827F, 0xC9A79917, 0x6F294CEC, 0x6CD5598B, 0x3DE23A75, 0x524775E7, 0x27BF9EB4, 0x5407CF39, 0x0BDC905F, 0xC27B0948, 0xAD5245A4, 0xC1871C2F, 0x45F5A660, 0x17B2D387, 0x300D4D33, 0x640A820A, 0x00000000, 0x00000000, 0x00000000, 0x00000000, 0x00000000, 0x00000000, 0x00000000, 0x00000000, 0x00000000, 0x00000000, 0x00000000, 0x00000000, 0x00000000, 0x00000000, 0x00000000, 0x00000000, 0x00000000, 0x00000000, 0x00000000, 0x00000000] := by decide +kernel
  have h9 : expandRot 40 8 5 [0x00010203, 0x04050607, 0x08090A0B, 0x0C0D0E0F, 0x10111213, 0x14151617, 0x18191A1B, 0x1C1D1E1F, 0xA573C29F, 0xA176C498, 0xA97FCE93, 0xA572C09C, 0x1651A8CD, 0x0244BEDA, 0x1A5DA4C1, 0x0640BADE, 0xAE87DFF0, 0x0FF11B68, 0xA68ED5FB, 0x03FC1567, 0x6DE1F148, 0x6FA54F92, 0x75F8EB53, 0x73B8518D, 0xC656827F, 0xC9A79917, 0x6F294CEC, 0x6CD5598B, 0x3DE23A75, 0x524775E7, 0x27BF9EB4, 0x5407CF39, 0x0BDC905F, 0xC27B0948, 0xAD5245A4, 0xC1871C2F, 0x45F5A660, 0x17B2D387, 0x300D4D33, 0x640A820A, 0x00000000, 0x00000000, 0x00000000, 0x00000000, 0x00000000, 0x00000000, 0x00000000, 0x00000000, 0x00000000, 0x00000000, 0x00000000, 0x00000000, 0x00000000, 0x00000000, 0x00000000, 0x00000000, 0x00000000, 0x00000000, 0x00000000, 0x00000000] = .ok [0x00010203, 0x04050607, 0x08090A0B, 0x0C0D0E0F, 0x10111213, 0x14151617, 0x18191A1B, 0x1C1D1E1F, 0xA573C29F, 0xA176C498, 0xA97FCE93, 0xA572C09C, 0x1651A8CD, 0x0244BEDA, 0x1A5DA4C1, 0x0640BADE, 0xAE87DFF0, 0x0FF11B68, 0xA68ED5FB, 0x03FC1567, 0x6DE1F148, 0x6FA54F92, 0x75F8EB53, 0x73B8518D, 0xC656827F, 0xC9A79917, 0x6F294CEC, 0x6CD5598B, 0x3DE23A75, 0x524775E7, 0x27BF9EB4, 0x5407CF39, 0x0BDC905F, 0xC27B0948, 0xAD5245A4, 0xC1871C2F, 0x45F5A660, 0x17B2D387, 0x300D4D33, 0x640A820A, 0x7CCFF71C, 0xBEB4FE54, 0x13E6BBF0, 0xD261A7DF, 0x00000000, 0x00000000, 0x00000000, 0x00000000, 0x00000000, 0x00000000, 0x00000000, 0x00000000, 0x00000000, 0x00000000, 0x00000000, 0x00000000, 0x00000000, 0x00000000, 0x00000000, 0x00000000] := by decide +kernel
  have h10 : expandSub 44 8 [0x00010203, 0x04050607, 0x08090A0B, 0x0C0D0E0F, 0x10111213, 0x14151617, 0x18191A1B, 0x1C1D1E1F, 0xA573C29F, 0xA176C498, 0xA97FCE93, 0xA572C09C, 0x1651A8CD, 0x0244BEDA, 0x1A5DA4C1, 0x0640BADE, 0xAE87DFF0, 0x0FF11B68, 0xA68ED5FB, 0x03FC1567, 0x6DE1F148, 0x6FA54F92, 0x75F8EB53, 0x73B8518D, 0xC656827F, 0xC9A79917, 0x6F294CEC, 0x6CD5598B, 0x3DE23A75, 0x524775E7, 0x27BF9EB4, 0x5407CF39, 0x0BDC905F, 0xC27B0948, 0xAD5245A4, 0xC1871C2F, 0x45F5A660, 0x17B2D387, 0x300D4D33, 0x640A820A, 0x7CCFF71C, 0xBEB4FE54, 0x13E6BBF0, 0xD261A7DF, 0x00000000, 0x00000000, 0x00000000, 0x00000000, 0x00000000, 0x00000000, 0x00000000, 0x00000000, 0x00000000, 0x00000000, 0x00000000, 0x00000000, 0x00000000, 0x00000000, 0x00000000, 0x00000000] = .ok [0x00010203, 0x04050607, 0x08090A0B, 0x0C0D0E0F, 0x10111213, 0x14151617, 0x18191A1B, 0x1C1D1E1F, 0xA573C29F, 0xA176C498, 0xA97FCE93, 0xA572C09C, 0x1651A8CD, 0x0244BEDA, 0x1A5DA4C1, 0x0640BADE, 0xAE87DFF0, 0x0FF11B68, 0xA68ED5FB, 0x03FC1567, 0x6DE1F148, 0x6FA54F92, 0x75F8EB53, 0x73B8518D, 0xC656827F, 0xC9A79917, 0x6F294CEC, 0x6CD5598B, 0x3DE23A75, 0x524775E7, 0x27BF9EB4, 0x5407CF39, 0x0BDC905F, 0xC27B0948, 0xAD5245A4, 0xC1871C2F, 0x45F5A660, 0x17B2D387, 0x300D4D33, 0x640A820A, 0x7CCFF71C, 0xBEB4FE54, 0x13E6BBF0, 0xD261A7DF, 0xF01AFAFE, 0xE7A82979, 0xD7A5644A, 0xB3AFE640, 0x00000000, 0x00000000, 0x00000000, 0x00000000, 0x00000000, 0x00000000, 0x00000000, 0x00000000, 0x00000000, 0x00000000, 0x00000000, 0x00000000] := by decide +kernel
  have h11 : expandRot 48 8 6 [0x00010203, 0x04050607, 0x08090A0B, 0x0C0D0E0F, 0x10111213, 0x14151617, 0x18191A1B, 0x1C1D1E1F, 0xA573C29F, 0xA176C498, 0xA97FCE93, 0xA572C09C, 0x1651A8CD, 0x0244BEDA, 0x1A5DA4C1, 0x0640BADE, 0xAE87DFF0, 0x0FF11B68, 0xA68ED5FB, 0x03FC1567, 0x6DE1F148, 0x6FA54F92, 0x75F8EB53, 0x73B8518D, 0xC656827F, 0xC9A79917, 0x6F294CEC, 0x6CD5598B, 0x3DE23A75, 0x524775E7, 0x27BF9EB4, 0x5407CF39, 0x0BDC905F, 0xC27B0948, 0xAD5245A4, 0xC1871C2F, 0x45F5A660, 0x17B2D387, 0x300D4D33, 0x640A820A, 0x7CCFF71C, 0xBEB4FE54, 0x13E6BBF0, 0xD261A7DF, 0xF01AFAFE, 0xE7A82979, 0xD7A5644A, 0xB3AFE640, 0x00000000, 0x00000000, 0x00000000, 0x00000000, 0x00000000, 0x00000000, 0x00000000, 0x00000000, 0x00000000, 0x00000000, 0x00000000, 0x00000000] = .ok [0x00010203, 0x04050607, 0x08090A0B, 0x0C0D0E0F, 0x10111213, 0x14151617, 0x18191A1B, 0x1C1D1E1F, 0xA573C29F, 0xA176C498, 0xA97FCE93, 0xA572C09C, 0x1651A8CD, 0x0244BEDA, 0x1A5DA4C1, 0x0640BADE, 0xAE87DFF0, 0x0FF11B68, 0xA68ED5FB, 0x03FC1567, 0x6DE1F148, 0x6FA54F92, 0x75F8EB53, 0x73B8518D, 0xC656827F, 0xC9A79917, 0x6F294CEC, 0x6CD5598B, 0x3DE23A75, 0x524775E7, 0x27BF9EB4, 0x5407CF39, 0x0BDC905F, 0xC27B0948, 0xAD5245A4, 0xC1871C2F, 0x45F5A660, 0x17B2D387, 0x300D4D33, 0x640A820A, 0x7CCFF71C, 0xBEB4FE54, 0x13E6BBF0, 0xD261A7DF, 0xF01AFAFE, 0xE7A82979, 0xD7A5644A, 0xB3AFE640, 0x2541FE71, 0x9BF50025, 0x8813BBD5, 0x5A721C0A, 0x00000000, 0x00000000, 0x00000000, 0x00000000, 0x00000000, 0x00000000, 0x00000000, 0x00000000] := by decide +kernel
  have h12 : expandSub 52 8 [0x00010203, 0x04050607, 0x08090A0B, 0x0C0D0E0F, 0x10111213, 0x14151617, 0x18191A1B, 0x1C1D1E1F, 0xA573C29F, 0xA176C498, 0xA97FCE93, 0xA572C09C, 0x1651A8CD, 0x0244BEDA, 0x1A5DA4C1, 0x0640BADE, 0xAE87DFF0, 0x0FF11B68, 0xA68ED5FB, 0x03FC1567, 0x6DE1F148, 0x6FA54F92, 0x75F8EB53, 0x73B8518D, 0xC656827F, 0xC9A79917, 0x6F294CEC, 0x6CD5598B, 0x3DE23A75, 0x524775E7, 0x27BF9EB4, 0x5407CF39, 0x0BDC905F, 0xC27B0948, 0xAD5245A4, 0xC1871C2F, 0x45F5A660, 0x17B2D387, 0x300D4D33, 0x640A820A, 0x7CCFF71C, 0xBEB4FE54, 0x13E6BBF0, 0xD261A7DF, 0xF01AFAFE, 0xE7A82979, 0xD7A5644A, 0xB3AFE640, 0x2541FE71, 0x9BF50025, 0x8813BBD5, 0x5A721C0A, 0x00000000, 0x00000000, 0x00000000, 0x00000000, 0x00000000, 0x00000000, 0x00000000, 0x00000000] = .ok [0x00010203, 0x04050607, 0x08090A0B, 0x0C0D0E0F, 0x10111213, 0x14151617, 0x18191A1B, 0x1C1D1E1F, 0xA573C29F, 0xA176C498, 0xA97FCE93, 0xA572C09C, 0x1651A8CD, 0x0244BEDA, 0x1A5DA4C1, 0x0640BADE, 0xAE87DFF0, 0x0FF11B68, 0xA68ED5FB, 0x03FC1567, 0x6DE1F148, 0x6FA54F92, 0x75F8EB53, 0x73B8518D, 0xC656827F, 0xC9A79917, 0x6F294CEC, 0x6CD5598B, 0x3DE23A75, 0x524775E7, 0x27BF9EB4, 0x5407CF39, 0x0BDC905F, 0xC27B0948, 0xAD5245A4, 0xC1871C2F, 0x45F5A660, 0x17B2D387, 0x300D4D33, 0x640A820A, 0x7CCFF71C, 0xBEB4FE54, 0x13E6BBF0, 0xD261A7DF, 0xF01AFAFE, 0xE7A82979, 0xD7A5644A, 0xB3AFE640, 0x2541FE71, 0x9BF50025, 0x8813BBD5, 0x5A721C0A, 0x4E5A6699, 0xA9F24FE0, 0x7E572BAA, 0xCDF8CDEA, 0x00000000, 0x00000000, 0x00000000, 0x00000000] := by decide +kernel
  have h13 : expandRot 56 8 7 [0x00010203, 0x04050607, 0x08090A0B, 0x0C0D0E0F, 0x10111213, 0x14151617, 0x18191A1B, 0x1C1D1E1F, 0xA573C29F, 0xA176C498, 0xA97FCE93, 0xA572C09C, 0x1651A8CD, 0x0244BEDA, 0x1A5DA4C1, 0x0640BADE, 0xAE87DFF0, 0x0FF11B68, 0xA68ED5FB, 0x03FC1567, 0x6DE1F148, 0x6FA54F92, 0x75F8EB53, 0x73B8518D, 0xC656827F, 0xC9A79917, 0x6F294CEC, 0x6CD5598B, 0x3DE23A75, 0x524775E7, 0x27BF9EB4, 0x5407CF39, 0x0BDC905F, 0xC27B0948, 0xAD5245A4, 0xC1871C2F, 0x45F5A660, 0x17B2D387, 0x300D4D33, 0x640A820A, 0x7CCFF71C, 0xBEB4FE54, 0x13E6BBF0, 0xD261A7DF, 0xF01AFAFE, 0xE7A82979, 0xD7A5644A, 0xB3AFE640, 0x2541FE71, 0x9BF50025, 0x8813BBD5, 0x5A721C0A, 0x4E5A6699, 0xA9F24FE0, 0x7E572BAA, 0xCDF8CDEA, 0x00000000, 0x00000000, 0x00000000, 0x00000000] = .ok [0x00010203, 0x04050607, 0x08090A0B, 0x0C0D0E0F, 0x10111213, 0x14151617, 0x18191A1B, 0x1C1D1E1F, 0xA573C29F, 0xA176C498, 0xA97FCE93, 0xA572C09C, 0x1651A8CD, 0x0244BEDA, 0x1A5DA4C1, 0x0640BADE, 0xAE87DFF0, 0x0FF11B68, 0xA68ED5FB, 0x03FC1567, 0x6DE1F148, 0x6FA54F92, 0x75F8EB53, 0x73B8518D, 0xC656827F, 0xC9A79917, 0x6F294CEC, 0x6CD5598B, 0x3DE23A75, 0x524775E7, 0x27BF9EB4, 0x5407CF39, 0x0BDC905F, 0xC27B0948, 0xAD5245A4, 0xC1871C2F, 0x45F5A660, 0x17B2D387, 0x300D4D33, 0x640A820A, 0x7CCFF71C, 0xBEB4FE54, 0x13E6BBF0, 0xD261A7DF, 0xF01AFAFE, 0xE7A82979, 0xD7A5644A, 0xB3AFE640, 0x2541FE71, 0x9BF50025, 0x8813BBD5, 0x5A721C0A, 0x4E5A6699, 0xA9F24FE0, 0x7E572BAA, 0xCDF8CDEA, 0x24FC79CC, 0xBF0979E9, 0x371AC23C, 0x6D68DE36] := by decide +kernel
  rw [standardExpand]
  simp only [show fipsKey32.length / 4 = 8 from rfl, show List.replicate (4 * (8 + 6 + 1)) (0 : Word) = [0x00000000, 0x00000000, 0x00000000, 0x00000000, 0x00000000, 0x00000000, 0x00000000, 0x00000000, 0x00000000, 0x00000000, 0x00000000, 0x00000000, 0x00000000, 0x00000000, 0x00000000, 0x00000000, 0x00000000, 0x00000000, 0x00000000, 0x00000000, 0x00000000, 0x00000000, 0x00000000, 0x00000000, 0x00000000, 0x00000000, 0x00000000, 0x00000000, 0x00000000, 0x00000000, 0x00000000, 0x00000000, 0x00000000, 0x00000000, 0x00000000, 0x00000000, 0x00000000, 0x00000000, 0x00000000, 0x00000000, 0x00000000, 0x00000000, 0x00000000, 0x00000000, 0x00000000, 0x00000000, 0x00000000, 0x00000000, 0x00000000, 0x00000000, 0x00000000, 0x00000000, 0x00000000, 0x00000000, 0x00000000, 0x00000000, 0x00000000, 0x00000000, 0x00000000, 0x00000000] from rfl]
  rw [if_pos trivial]
  rw [h0, ok_bind, h1, ok_bind, h2, ok_bind, h3, ok_bind, h4, ok_bind, h5, ok_bind, h6, ok_bind, h7, ok_bind, h8, ok_bind, h9, ok_bind, h10, ok_bind, h11, ok_bind, h12, ok_bind, h13, ok_bind]
  rfl

theorem fips_encrypt_32 : encrypt128 fipsRk32 14 fipsPlain 0 (List.replicate 16 0) 0 = .ok [0x8E, 0xA2, 0xB7, 0xCA, 0x51, 0x67, 0x45, 0xBF, 0xEA, 0xFC, 0x49, 0x90, 0x4B, 0x49, 0x60, 0x89] := by
  have e0 : keyAddition fipsRk32 0 fipsPlain = .ok [0x00, 0x10, 0x20, 0x30, 0x40, 0x50, 0x60, 0x70, 0x80, 0x90, 0xA0, 0xB0, 0xC0, 0xD0, 0xE0, 0xF0] := by decide +kernel
  have e1 : substitution [0x00, 0x10, 0x20, 0x30, 0x40, 0x50, 0x60, 0x70, 0x80, 0x90, 0xA0, 0xB0, 0xC0, 0xD0, 0xE0, 0xF0] = .ok [0x63, 0xCA, 0xB7, 0x04, 0x09, 0x53, 0xD0, 0x51, 0xCD, 0x60, 0xE0, 0xE7, 0xBA, 0x70, 0xE1, 0x8C] := by decide +kernel
  have e2 : runOps shiftRows128Ops none ([0x63, 0xCA, 0xB7, 0x04, 0x09, 0x53, 0xD0, 0x51, 0xCD, 0x60, 0xE0, 0xE7, 0xBA, 0x70, 0xE1, 0x8C] : List Byte) = .ok [0x63, 0x53, 0xE0, 0x8C, 0x09, 0x60, 0xE1, 0x04, 0xCD, 0x70, 0xB7, 0x51, 0xBA, 0xCA, 0xD0, 0xE7] := by decide +kernel
  have e3 : mixColumns [0x63, 0x53, 0xE0, 0x8C, 0x09, 0x60, 0xE1, 0x04, 0xCD, 0x70, 0xB7, 0x51, 0xBA, 0xCA, 0xD0, 0xE7] = .ok [0x5F, 0x72, 0x64, 0x15, 0x57, 0xF5, 0xBC, 0x92, 0xF7, 0xBE, 0x3B, 0x29, 0x1D, 0xB9, 0xF9, 0x1A] := by decide +kernel
  have e4 : keyAddition fipsRk32 (1 * (16 / 4)) [0x5F, 0x72, 0x64, 0x15, 0x57, 0xF5, 0xBC, 0x92, 0xF7, 0xBE, 0x3B, 0x29, 0x1D, 0xB9, 0xF9, 0x1A] = .ok [0x4F, 0x63, 0x76, 0x06, 0x43, 0xE0, 0xAA, 0x85, 0xEF, 0xA7, 0x21, 0x32, 0x01, 0xA4, 0xE7, 0x05] := by decide +kernel
  have e5 : substitution [0x4F, 0x63, 0x76, 0x06, 0x43, 0xE0, 0xAA, 0x85, 0xEF, 0xA7, 0x21, 0x32, 0x01, 0xA4, 0xE7, 0x05] = .ok [0x84, 0xFB, 0x38, 0x6F, 0x1A, 0xE1, 0xAC, 0x97, 0xDF, 0x5C, 0xFD, 0x23, 0x7C, 0x49, 0x94, 0x6B] := by decide +kernel
  have e6 : runOps shiftRows128Ops none ([0x84, 0xFB, 0x38, 0x6F, 0x1A, 0xE1, 0xAC, 0x97, 0xDF, 0x5C, 0xFD, 0x23, 0x7C, 0x49, 0x94, 0x6B] : List Byte) = .ok [0x84, 0xE1, 0xFD, 0x6B, 0x1A, 0x5C, 0x94, 0x6F, 0xDF, 0x49, 0x38, 0x97, 0x7C, 0xFB, 0xAC, 0x23] := by decide +kernel
  have e7 : mixColumns [0x84, 0xE1, 0xFD, 0x6B, 0x1A, 0x5C, 0x94, 0x6F, 0xDF, 0x49, 0x38, 0x97, 0x7C, 0xFB, 0xAC, 0x23] = .ok [0xBD, 0x2A, 0x39, 0x5D, 0x2B, 0x6A, 0xC4, 0x38, 0xD1, 0x92, 0x44, 0x3E, 0x61, 0x5D, 0xA1, 0x95] := by decide +kernel
  have e8 : keyAddition fipsRk32 (2 * (16 / 4)) [0xBD, 0x2A, 0x39, 0x5D, 0x2B, 0x6A, 0xC4, 0x38, 0xD1, 0x92, 0x44, 0x3E, 0x61, 0x5D, 0xA1, 0x95] = .ok [0x18, 0x59, 0xFB, 0xC2, 0x8A, 0x1C, 0x00, 0xA0, 0x78, 0xED, 0x8A, 0xAD, 0xC4, 0x2F, 0x61, 0x09] := by decide +kernel
  have e9 : substitution [0x18, 0x59, 0xFB, 0xC2, 0x8A, 0x1C, 0x00, 0xA0, 0x78, 0xED, 0x8A, 0xAD, 0xC4, 0x2F, 0x61, 0x09] = .ok [0xAD, 0xCB, 0x0F, 0x25, 0x7E, 0x9C, 0x63, 0xE0, 0xBC, 0x55, 0x7E, 0x95, 0x1C, 0x15, 0xEF, 0x01] := by decide +kernel
  have e10 : runOps shiftRows128Ops none ([0xAD, 0xCB, 0x0F, 0x25, 0x7E, 0x9C, 0x63, 0xE0, 0xBC, 0x55, 0x7E, 0x95, 0x1C, 0x15, 0xEF, 0x01] : List Byte) = .ok [0xAD, 0x9C, 0x7E, 0x01, 0x7E, 0x55, 0xEF, 0x25, 0xBC, 0x15, 0x0F, 0xE0, 0x1C, 0xCB, 0x63, 0x95] := by decide +kernel
  have e11 : mixColumns [0xAD, 0x9C, 0x7E, 0x01, 0x7E, 0x55, 0xEF, 0x25, 0xBC, 0x15, 0x0F, 0xE0, 0x1C, 0xCB, 0x63, 0x95] = .ok [0x81, 0x0D, 0xCE, 0x0C, 0xC9, 0xDB, 0x81, 0x72, 0xB3, 0x67, 0x8C, 0x1E, 0x88, 0xA1, 0xB5, 0xBD] := by decide +kernel
  have e12 : keyAddition fipsRk32 (3 * (16 / 4)) [0x81, 0x0D, 0xCE, 0x0C, 0xC9, 0xDB, 0x81, 0x72, 0xB3, 0x67, 0x8C, 0x1E, 0x88, 0xA1, 0xB5, 0xBD] = .ok [0x97, 0x5C, 0x66, 0xC1, 0xCB, 0x9F, 0x3F, 0xA8, 0xA9, 0x3A, 0x28, 0xDF, 0x8E, 0xE1, 0x0F, 0x63] := by decide +kernel
  have e13 : substitution [0x97, 0x5C, 0x66, 0xC1, 0xCB, 0x9F, 0x3F, 0xA8, 0xA9, 0x3A, 0x28, 0xDF, 0x8E, 0xE1, 0x0F, 0x63] = .ok [0x88, 0x4A, 0x33, 0x78, 0x1F, 0xDB, 0x75, 0xC2, 0xD3, 0x80, 0x34, 0x9E, 0x19, 0xF8, 0x76, 0xFB] := by decide +kernel
  have e14 : runOps shiftRows128Ops none ([0x88, 0x4A, 0x33, 0x78, 0x1F, 0xDB, 0x75, 0xC2, 0xD3, 0x80, 0x34, 0x9E, 0x19, 0xF8, 0x76, 0xFB] : List Byte) = .ok [0x88, 0xDB, 0x34, 0xFB, 0x1F, 0x80, 0x76, 0x78, 0xD3, 0xF8, 0x33, 0xC2, 0x19, 0x4A, 0x75, 0x9E] := by decide +kernel
  have e15 : mixColumns [0x88, 0xDB, 0x34, 0xFB, 0x1F, 0x80, 0x76, 0x78, 0xD3, 0xF8, 0x33, 0xC2, 0x19, 0x4A, 0x75, 0x9E] = .ok [0xB2, 0x82, 0x2D, 0x81, 0xAB, 0xE6, 0xFB, 0x27, 0x5F, 0xAF, 0x10, 0x3A, 0x07, 0x8C, 0x00, 0x33] := by decide +kernel
  have e16 : keyAddition fipsRk32 (4 * (16 / 4)) [0xB2, 0x82, 0x2D, 0x81, 0xAB, 0xE6, 0xFB, 0x27, 0x5F, 0xAF, 0x10, 0x3A, 0x07, 0x8C, 0x00, 0x33] = .ok [0x1C, 0x05, 0xF2, 0x71, 0xA4, 0x17, 0xE0, 0x4F, 0xF9, 0x21, 0xC5, 0xC1, 0x04, 0x70, 0x15, 0x54] := by decide +kernel
  have e17 : substitution [0x1C, 0x05, 0xF2, 0x71, 0xA4, 0x17, 0xE0, 0x4F, 0xF9, 0x21, 0xC5, 0xC1, 0x04, 0x70, 0x15, 0x54] = .ok [0x9C, 0x6B, 0x89, 0xA3, 0x49, 0xF0, 0xE1, 0x84, 0x99, 0xFD, 0xA6, 0x78, 0xF2, 0x51, 0x59, 0x20] := by decide +kernel
  have e18 : runOps shiftRows128Ops none ([0x9C, 0x6B, 0x89, 0xA3, 0x49, 0xF0, 0xE1, 0x84, 0x99, 0xFD, 0xA6, 0x78, 0xF2, 0x51, 0x59, 0x20] : List Byte) = .ok [0x9C, 0xF0, 0xA6, 0x20, 0x49, 0xFD, 0x59, 0xA3, 0x99, 0x51, 0x89, 0x84, 0xF2, 0x6B, 0xE1, 0x78] := by decide +kernel
  have e19 : mixColumns [0x9C, 0xF0, 0xA6, 0x20, 0x49, 0xFD, 0x59, 0xA3, 0x99, 0x51, 0x89, 0x84, 0xF2, 0x6B, 0xE1, 0x78] = .ok [0xAE, 0xB6, 0x5B, 0xA9, 0x74, 0xE0, 0xF8, 0x22, 0xD7, 0x3F, 0x56, 0x7B, 0xDB, 0x64, 0xC8, 0x77] := by decide +kernel
  have e20 : keyAddition fipsRk32 (5 * (16 / 4)) [0xAE, 0xB6, 0x5B, 0xA9, 0x74, 0xE0, 0xF8, 0x22, 0xD7, 0x3F, 0x56, 0x7B, 0xDB, 0x64, 0xC8, 0x77] = .ok [0xC3, 0x57, 0xAA, 0xE1, 0x1B, 0x45, 0xB7, 0xB0, 0xA2, 0xC7, 0xBD, 0x28, 0xA8, 0xDC, 0x99, 0xFA] := by decide +kernel
  have e21 : substitution [0xC3, 0x57, 0xAA, 0xE1, 0x1B, 0x45, 0xB7, 0xB0, 0xA2, 0xC7, 0xBD, 0x28, 0xA8, 0xDC, 0x99, 0xFA] = .ok [0x2E, 0x5B, 0xAC, 0xF8, 0xAF, 0x6E, 0xA9, 0xE7, 0x3A, 0xC6, 0x7A, 0x34, 0xC2, 0x86, 0xEE, 0x2D] := by decide +kernel
  have e22 : runOps shiftRows128Ops none ([0x2E, 0x5B, 0xAC, 0xF8, 0xAF, 0x6E, 0xA9, 0xE7, 0x3A, 0xC6, 0x7A, 0x34, 0xC2, 0x86, 0xEE, 0x2D] : List Byte) = .ok [0x2E, 0x6E, 0x7A, 0x2D, 0xAF, 0xC6, 0xEE, 0xF8, 0x3A, 0x86, 0xAC, 0xE7, 0xC2, 0x5B, 0xA9, 0x34] := by decide +kernel
  have e23 : mixColumns [0x2E, 0x6E, 0x7A, 0x2D, 0xAF, 0xC6, 0xEE, 0xF8, 0x3A, 0x86, 0xAC, 0xE7, 0xC2, 0x5B, 0xA9, 0x34] = .ok [0xB9, 0x51, 0xC3, 0x3C, 0x02, 0xE9, 0xBD, 0x29, 0xAE, 0x25, 0xCD, 0xB1, 0xEF, 0xA0, 0x8C, 0xC7] := by decide +kernel
  have e24 : keyAddition fipsRk32 (6 * (16 / 4)) [0xB9, 0x51, 0xC3, 0x3C, 0x02, 0xE9, 0xBD, 0x29, 0xAE, 0x25, 0xCD, 0xB1, 0xEF, 0xA0, 0x8C, 0xC7] = .ok [0x7F, 0x07, 0x41, 0x43, 0xCB, 0x4E, 0x24, 0x3E, 0xC1, 0x0C, 0x81, 0x5D, 0x83, 0x75, 0xD5, 0x4C] := by decide +kernel
  have e25 : substitution [0x7F, 0x07, 0x41, 0x43, 0xCB, 0x4E, 0x24, 0x3E, 0xC1, 0x0C, 0x81, 0x5D, 0x83, 0x75, 0xD5, 0x4C] = .ok [0xD2, 0xC5, 0x83, 0x1A, 0x1F, 0x2F, 0x36, 0xB2, 0x78, 0xFE, 0x0C, 0x4C, 0xEC, 0x9D, 0x03, 0x29] := by decide +kernel
  have e26 : runOps shiftRows128Ops none ([0xD2, 0xC5, 0x83, 0x1A, 0x1F, 0x2F, 0x36, 0xB2, 0x78, 0xFE, 0x0C, 0x4C, 0xEC, 0x9D, 0x03, 0x29] : List Byte) = .ok [0xD2, 0x2F, 0x0C, 0x29, 0x1F, 0xFE, 0x03, 0x1A, 0x78, 0x9D, 0x83, 0xB2, 0xEC, 0xC5, 0x36, 0x4C] := by decide +kernel
  have e27 : mixColumns [0xD2, 0x2F, 0x0C, 0x29, 0x1F, 0xFE, 0x03, 0x1A, 0x78, 0x9D, 0x83, 0xB2, 0xEC, 0xC5, 0x36, 0x4C] = .ok [0xEB, 0xB1, 0x9E, 0x1C, 0x3E, 0xE7, 0xC9, 0xE8, 0x7D, 0x75, 0x35, 0xE9, 0xED, 0x6B, 0x91, 0x44] := by decide +kernel
  have e28 : keyAddition fipsRk32 (7 * (16 / 4)) [0xEB, 0xB1, 0x9E, 0x1C, 0x3E, 0xE7, 0xC9, 0xE8, 0x7D, 0x75, 0x35, 0xE9, 0xED, 0x6B, 0x91, 0x44] = .ok [0xD6, 0x53, 0xA4, 0x69, 0x6C, 0xA0, 0xBC, 0x0F, 0x5A, 0xCA, 0xAB, 0x5D, 0xB9, 0x6C, 0x5E, 0x7D] := by decide +kernel
  have e29 : substitution [0xD6, 0x53, 0xA4, 0x69, 0x6C, 0xA0, 0xBC, 0x0F, 0x5A, 0xCA, 0xAB, 0x5D, 0xB9, 0x6C, 0x5E, 0x7D] = .ok [0xF6, 0xED, 0x49, 0xF9, 0x50, 0xE0, 0x65, 0x76, 0xBE, 0x74, 0x62, 0x4C, 0x56, 0x50, 0x58, 0xFF] := by decide +kernel
  have e30 : runOps shiftRows128Ops none ([0xF6, 0xED, 0x49, 0xF9, 0x50, 0xE0, 0x65, 0x76, 0xBE, 0x74, 0x62, 0x4C, 0x56, 0x50, 0x58, 0xFF] : List Byte) = .ok [0xF6, 0xE0, 0x62, 0xFF, 0x50, 0x74, 0x58, 0xF9, 0xBE, 0x50, 0x49, 0x76, 0x56, 0xED, 0x65, 0x4C] := by decide +kernel
  have e31 : mixColumns [0xF6, 0xE0, 0x62, 0xFF, 0x50, 0x74, 0x58, 0xF9, 0xBE, 0x50, 0x49, 0x76, 0x56, 0xED, 0x65, 0x4C] = .ok [0x51, 0x74, 0xC8, 0x66, 0x9D, 0xA9, 0x84, 0x35, 0xA8, 0xB3, 0xE6, 0x2C, 0xA9, 0x74, 0xA5, 0xEA] := by decide +kernel
  have e32 : keyAddition fipsRk32 (8 * (16 / 4)) [0x51, 0x74, 0xC8, 0x66, 0x9D, 0xA9, 0x84, 0x35, 0xA8, 0xB3, 0xE6, 0x2C, 0xA9, 0x74, 0xA5, 0xEA] = .ok [0x5A, 0xA8, 0x58, 0x39, 0x5F, 0xD2, 0x8D, 0x7D, 0x05, 0xE1, 0xA3, 0x88, 0x68, 0xF3, 0xB9, 0xC5] := by decide +kernel
  have e33 : substitution [0x5A, 0xA8, 0x58, 0x39, 0x5F, 0xD2, 0x8D, 0x7D, 0x05, 0xE1, 0xA3, 0x88, 0x68, 0xF3, 0xB9, 0xC5] = .ok [0xBE, 0xC2, 0x6A, 0x12, 0xCF, 0xB5, 0x5D, 0xFF, 0x6B, 0xF8, 0x0A, 0xC4, 0x45, 0x0D, 0x56, 0xA6] := by decide +kernel
  have e34 : runOps shiftRows128Ops none ([0xBE, 0xC2, 0x6A, 0x12, 0xCF, 0xB5, 0x5D, 0xFF, 0x6B, 0xF8, 0x0A, 0xC4, 0x45, 0x0D, 0x56, 0xA6] : List Byte) = .ok [0xBE, 0xB5, 0x0A, 0xA6, 0xCF, 0xF8, 0x56, 0x12, 0x6B, 0x0D, 0x6A, 0xFF, 0x45, 0xC2, 0x5D, 0xC4] := by decide +kernel
  have e35 : mixColumns [0xBE, 0xB5, 0x0A, 0xA6, 0xCF, 0xF8, 0x56, 0x12, 0x6B, 0x0D, 0x6A, 0xFF, 0x45, 0xC2, 0x5D, 0xC4] = .ok [0x0F, 0x77, 0xEE, 0x31, 0xD2, 0xCC, 0xAD, 0xC0, 0x54, 0x30, 0xA8, 0x3F, 0x4E, 0xF9, 0x6A, 0xC3] := by decide +kernel
  have e36 : keyAddition fipsRk32 (9 * (16 / 4)) [0x0F, 0x77, 0xEE, 0x31, 0xD2, 0xCC, 0xAD, 0xC0, 0x54, 0x30, 0xA8, 0x3F, 0x4E, 0xF9, 0x6A, 0xC3] = .ok [0x4A, 0x82, 0x48, 0x51, 0xC5, 0x7E, 0x7E, 0x47, 0x64, 0x3D, 0xE5, 0x0C, 0x2A, 0xF3, 0xE8, 0xC9] := by decide +kernel
  have e37 : substitution [0x4A, 0x82, 0x48, 0x51, 0xC5, 0x7E, 0x7E, 0x47, 0x64, 0x3D, 0xE5, 0x0C, 0x2A, 0xF3, 0xE8, 0xC9] = .ok [0xD6, 0x13, 0x52, 0xD1, 0xA6, 0xF3, 0xF3, 0xA0, 0x43, 0x27, 0xD9, 0xFE, 0xE5, 0x0D, 0x9B, 0xDD] := by decide +kernel
  have e38 : runOps shiftRows128Ops none ([0xD6, 0x13, 0x52, 0xD1, 0xA6, 0xF3, 0xF3, 0xA0, 0x43, 0x27, 0xD9, 0xFE, 0xE5, 0x0D, 0x9B, 0xDD] : List Byte) = .ok [0xD6, 0xF3, 0xD9, 0xDD, 0xA6, 0x27, 0x9B, 0xD1, 0x43, 0x0D, 0x52, 0xA0, 0xE5, 0x13, 0xF3, 0xFE] := by decide +kernel
  have e39 : mixColumns [0xD6, 0xF3, 0xD9, 0xDD, 0xA6, 0x27, 0x9B, 0xD1, 0x43, 0x0D, 0x52, 0xA0, 0xE5, 0x13, 0xF3, 0xFE] = .ok [0xBD, 0x86, 0xF0, 0xEA, 0x74, 0x8F, 0xC4, 0xF4, 0x63, 0x0F, 0x11, 0xC1, 0xE9, 0x33, 0x12, 0x33] := by decide +kernel
  have e40 : keyAddition fipsRk32 (10 * (16 / 4)) [0xBD, 0x86, 0xF0, 0xEA, 0x74, 0x8F, 0xC4, 0xF4, 0x63, 0x0F, 0x11, 0xC1, 0xE9, 0x33, 0x12, 0x33] = .ok [0xC1, 0x49, 0x07, 0xF6, 0xCA, 0x3B, 0x3A, 0xA0, 0x70, 0xE9, 0xAA, 0x31, 0x3B, 0x52, 0xB5, 0xEC] := by decide +kernel
  have e41 : substitution [0xC1, 0x49, 0x07, 0xF6, 0xCA, 0x3B, 0x3A, 0xA0, 0x70, 0xE9, 0xAA, 0x31, 0x3B, 0x52, 0xB5, 0xEC] = .ok [0x78, 0x3B, 0xC5, 0x42, 0x74, 0xE2, 0x80, 0xE0, 0x51, 0x1E, 0xAC, 0xC7, 0xE2, 0x00, 0xD5, 0xCE] := by decide +kernel
  have e42 : runOps shiftRows128Ops none ([0x78, 0x3B, 0xC5, 0x42, 0x74, 0xE2, 0x80, 0xE0, 0x51, 0x1E, 0xAC, 0xC7, 0xE2, 0x00, 0xD5, 0xCE] : List Byte) = .ok [0x78, 0xE2, 0xAC, 0xCE, 0x74, 0x1E, 0xD5, 0x42, 0x51, 0x00, 0xC5, 0xE0, 0xE2, 0x3B, 0x80, 0xC7] := by decide +kernel
  have e43 : mixColumns [0x78, 0xE2, 0xAC, 0xCE, 0x74, 0x1E, 0xD5, 0x42, 0x51, 0x00, 0xC5, 0xE0, 0xE2, 0x3B, 0x80, 0xC7] = .ok [0xAF, 0x86, 0x90, 0x41, 0x5D, 0x6E, 0x1D, 0xD3, 0x87, 0xE5, 0xFB, 0xED, 0xD5, 0xC8, 0x90, 0x13] := by decide +kernel
  have e44 : keyAddition fipsRk32 (11 * (16 / 4)) [0xAF, 0x86, 0x90, 0x41, 0x5D, 0x6E, 0x1D, 0xD3, 0x87, 0xE5, 0xFB, 0xED, 0xD5, 0xC8, 0x90, 0x13] = .ok [0x5F, 0x9C, 0x6A, 0xBF, 0xBA, 0xC6, 0x34, 0xAA, 0x50, 0x40, 0x9F, 0xA7, 0x66, 0x67, 0x76, 0x53] := by decide +kernel
  have e45 : substitution [0x5F, 0x9C, 0x6A, 0xBF, 0xBA, 0xC6, 0x34, 0xAA, 0x50, 0x40, 0x9F, 0xA7, 0x66, 0x67, 0x76, 0x53] = .ok [0xCF, 0xDE, 0x02, 0x08, 0xF4, 0xB4, 0x18, 0xAC, 0x53, 0x09, 0xDB, 0x5C, 0x33, 0x85, 0x38, 0xED] := by decide +kernel
  have e46 : runOps shiftRows128Ops none ([0xCF, 0xDE, 0x02, 0x08, 0xF4, 0xB4, 0x18, 0xAC, 0x53, 0x09, 0xDB, 0x5C, 0x33, 0x85, 0x38, 0xED] : List Byte) = .ok [0xCF, 0xB4, 0xDB, 0xED, 0xF4, 0x09, 0x38, 0x08, 0x53, 0x85, 0x02, 0xAC, 0x33, 0xDE, 0x18, 0x5C] := by decide +kernel
  have e47 : mixColumns [0xCF, 0xB4, 0xDB, 0xED, 0xF4, 0x09, 0x38, 0x08, 0x53, 0x85, 0x02, 0xAC, 0x33, 0xDE, 0x18, 0x5C] = .ok [0x74, 0x27, 0xFA, 0xE4, 0xD8, 0xA6, 0x95, 0x26, 0x9C, 0xE8, 0x3D, 0x31, 0x5B, 0xE0, 0x39, 0x2B] := by decide +kernel
  have e48 : keyAddition fipsRk32 (12 * (16 / 4)) [0x74, 0x27, 0xFA, 0xE4, 0xD8, 0xA6, 0x95, 0x26, 0x9C, 0xE8, 0x3D, 0x31, 0x5B, 0xE0, 0x39, 0x2B] = .ok [0x51, 0x66, 0x04, 0x95, 0x43, 0x53, 0x95, 0x03, 0x14, 0xFB, 0x86, 0xE4, 0x01, 0x92, 0x25, 0x21] := by decide +kernel
  have e49 : substitution [0x51, 0x66, 0x04, 0x95, 0x43, 0x53, 0x95, 0x03, 0x14, 0xFB, 0x86, 0xE4, 0x01, 0x92, 0x25, 0x21] = .ok [0xD1, 0x33, 0xF2, 0x2A, 0x1A, 0xED, 0x2A, 0x7B, 0xFA, 0x0F, 0x44, 0x69, 0x7C, 0x4F, 0x3F, 0xFD] := by decide +kernel
  have e50 : runOps shiftRows128Ops none ([0xD1, 0x33, 0xF2, 0x2A, 0x1A, 0xED, 0x2A, 0x7B, 0xFA, 0x0F, 0x44, 0x69, 0x7C, 0x4F, 0x3F, 0xFD] : List Byte) = .ok [0xD1, 0xED, 0x44, 0xFD, 0x1A, 0x0F, 0x3F, 0x2A, 0xFA, 0x4F, 0xF2, 0x7B, 0x7C, 0x33, 0x2A, 0x69] := by decide +kernel
  have e51 : mixColumns [0xD1, 0xED, 0x44, 0xFD, 0x1A, 0x0F, 0x3F, 0x2A, 0xFA, 0x4F, 0xF2, 0x7B, 0x7C, 0x33, 0x2A, 0x69] = .ok [0x2C, 0x21, 0xA8, 0x20, 0x30, 0x6F, 0x15, 0x4A, 0xB7, 0x12, 0xC7, 0x5E, 0xEE, 0x0D, 0xA0, 0x4F] := by decide +kernel
  have e52 : keyAddition fipsRk32 (13 * (16 / 4)) [0x2C, 0x21, 0xA8, 0x20, 0x30, 0x6F, 0x15, 0x4A, 0xB7, 0x12, 0xC7, 0x5E, 0xEE, 0x0D, 0xA0, 0x4F] = .ok [0x62, 0x7B, 0xCE, 0xB9, 0x99, 0x9D, 0x5A, 0xAA, 0xC9, 0x45, 0xEC, 0xF4, 0x23, 0xF5, 0x6D, 0xA5] := by decide +kernel
  have e53 : substitution [0x62, 0x7B, 0xCE, 0xB9, 0x99, 0x9D, 0x5A, 0xAA, 0xC9, 0x45, 0xEC, 0xF4, 0x23, 0xF5, 0x6D, 0xA5] = .ok [0xAA, 0x21, 0x8B, 0x56, 0xEE, 0x5E, 0xBE, 0xAC, 0xDD, 0x6E, 0xCE, 0xBF, 0x26, 0xE6, 0x3C, 0x06] := by decide +kernel
  have e54 : runOps shiftRows128Ops none ([0xAA, 0x21, 0x8B, 0x56, 0xEE, 0x5E, 0xBE, 0xAC, 0xDD, 0x6E, 0xCE, 0xBF, 0x26, 0xE6, 0x3C, 0x06] : List Byte) = .ok [0xAA, 0x5E, 0xCE, 0x06, 0xEE, 0x6E, 0x3C, 0x56, 0xDD, 0xE6, 0x8B, 0xAC, 0x26, 0x21, 0xBE, 0xBF] := by decide +kernel
  have e55 : keyAddition fipsRk32 (14 * (16 / 4)) [0xAA, 0x5E, 0xCE, 0x06, 0xEE, 0x6E, 0x3C, 0x56, 0xDD, 0xE6, 0x8B, 0xAC, 0x26, 0x21, 0xBE, 0xBF] = .ok [0x8E, 0xA2, 0xB7, 0xCA, 0x51, 0x67, 0x45, 0xBF, 0xEA, 0xFC, 0x49, 0x90, 0x4B, 0x49, 0x60, 0x89] := by decide +kernel
  have e : copy fipsPlain 0 (List.replicate 16 0) 0 16 = .ok fipsPlain := by decide +kernel
  have e' : copy ([0x8E, 0xA2, 0xB7, 0xCA, 0x51, 0x67, 0x45, 0xBF, 0xEA, 0xFC, 0x49, 0x90, 0x4B, 0x49, 0x60, 0x89] : List Byte) 0 (List.replicate 16 0) 0 16 = .ok [0x8E, 0xA2, 0xB7, 0xCA, 0x51, 0x67, 0x45, 0xBF, 0xEA, 0xFC, 0x49, 0x90, 0x4B, 0x49, 0x60, 0x89] := by decide +kernel
  rw [encrypt128, forward, e, ok_bind, e0, ok_bind]
  simp only [show 14 - 1 = 13 from rfl, loopN, Nat.reduceAdd]
  rw [e1, ok_bind]
  rw [e2, ok_bind]
  rw [e3, ok_bind]
  rw [e4, ok_bind]
  rw [e5, ok_bind]
  rw [e6, ok_bind]
  rw [e7, ok_bind]
  rw [e8, ok_bind]
  rw [e9, ok_bind]
  rw [e10, ok_bind]
  rw [e11, ok_bind]
  rw [e12, ok_bind]
  rw [e13, ok_bind]
  rw [e14, ok_bind]
  rw [e15, ok_bind]
  rw [e16, ok_bind]
  rw [e17, ok_bind]
  rw [e18, ok_bind]
  rw [e19, ok_bind]
  rw [e20, ok_bind]
  rw [e21, ok_bind]
  rw [e22, ok_bind]
  rw [e23, ok_bind]
  rw [e24, ok_bind]
  rw [e25, ok_bind]
  rw [e26, ok_bind]
  rw [e27, ok_bind]
  rw [e28, ok_bind]
  rw [e29, ok_bind]
  rw [e30, ok_bind]
  rw [e31, ok_bind]
  rw [e32, ok_bind]
  rw [e33, ok_bind]
  rw [e34, ok_bind]
  rw [e35, ok_bind]
  rw [e36, ok_bind]
  rw [e37, ok_bind]
  rw [e38, ok_bind]
  rw [e39, ok_bind]
  rw [e40, ok_bind]
  rw [e41, ok_bind]
  rw [e42, ok_bind]
  rw [e43, ok_bind]
  rw [e44, ok_bind]
  rw [e45, ok_bind]
  rw [e46, ok_bind]
  rw [e47, ok_bind]
  rw [e48, ok_bind]
  rw [e49, ok_bind]
  rw [e50, ok_bind]
  rw [e51, ok_bind]
  rw [e52, ok_bind, ok_bind]
  rw [e53, ok_bind]
  rw [e54, ok_bind]
  rw [e55, ok_bind]
  exact e'

/-- Appendix C.3: the reference cipher, hence (C55_encrypt) both builds. -/
theorem fips_c3 : onBytes (Aes.aes fipsKey32) fipsPlain = [0x8E, 0xA2, 0xB7, 0xCA, 0x51, 0x67, 0x45, 0xBF, 0xEA, 0xFC, 0x49, 0x90, 0x4B, 0x49, 0x60, 0x89] :=
  aes_of_run (by decide) fips_expand_32 (by decide) fips_encrypt_32

end Cex.Rijndael
