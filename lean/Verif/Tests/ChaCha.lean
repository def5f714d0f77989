import Verif.Tests.Aead
/-
The test vectors of tests/test_cipher.py for the ChaCha20-Poly1305 cipher, on the model.
-/
namespace OSK

/-- test_cipher.py:303-332 -/
def tVector18 : Vector :=
  ⟨.chacha20Poly1305, [0, 0, 0, 0, 0, 0, 0, 0, 0, 0, 0, 0, 0, 0, 0, 0, 0, 0, 0, 0, 0, 0, 0, 0, 0, 0, 0, 0, 0, 0, 0, 0],
   [],
   [0, 0, 0, 0, 0, 0, 0, 0, 0, 0, 0, 0, 0, 0, 0, 0, 0, 0, 0, 0, 0, 0, 0, 0, 0, 0, 0, 0, 0, 0, 0, 0, 0, 0, 0, 0, 0, 0, 0, 0, 0, 0, 0, 0, 0, 0, 0, 0, 0, 0, 0, 0, 0, 0, 0, 0, 0, 0, 0, 0, 0, 0, 0, 0],
   [159, 7, 231, 190, 85, 81, 56, 122, 152, 186, 151, 124, 115, 45, 8, 13, 203, 15, 41, 160, 72, 227, 101, 105, 18, 198, 83, 62, 50, 238, 122, 237, 41, 183, 33, 118, 156, 230, 78, 67, 213, 113, 51, 176, 116, 216, 57, 213, 49, 237, 31, 40, 81, 10, 251, 69, 172, 225, 10, 31, 75, 121, 77, 111, 209, 95, 205, 255, 226, 143, 148, 100, 212, 209, 145, 138, 231, 32, 226, 233], 8⟩

/-- The first block of the key stream. -/
def tBlock0 : Bytes :=
  [118, 184, 224, 173, 160, 241, 61, 144, 64, 93, 106, 229, 83, 134, 189, 40, 189, 210, 25, 184, 160, 141, 237, 26, 168, 54, 239, 204, 139, 119, 13, 199, 218, 65, 89, 124, 81, 87, 72, 141, 119, 36, 224, 63, 184, 216, 74, 55, 106, 67, 184, 244, 21, 24, 161, 28, 195, 135, 182, 105, 178, 238, 101, 134]
/-- The second block of the key stream. -/
def tBlock1 : Bytes :=
  [159, 7, 231, 190, 85, 81, 56, 122, 152, 186, 151, 124, 115, 45, 8, 13, 203, 15, 41, 160, 72, 227, 101, 105, 18, 198, 83, 62, 50, 238, 122, 237, 41, 183, 33, 118, 156, 230, 78, 67, 213, 113, 51, 176, 116, 216, 57, 213, 49, 237, 31, 40, 81, 10, 251, 69, 172, 225, 10, 31, 75, 121, 77, 111]

theorem tBlock0_eq : Std.chachaBlock (List.replicate 32 0) (List.replicate 16 0) 0 = tBlock0 := by decide +kernel
theorem tBlock1_eq : Std.chachaBlock (List.replicate 32 0) (List.replicate 16 0) 1 = tBlock1 := by decide +kernel

theorem streamUpdate_block (key nonce : Bytes) (n : Nat) (b : Bytes) : ∀ j, j + b.length ≤ 64 →
    streamUpdate (fun i => (Std.chachaBlock key nonce (i / 64)).getD (i % 64) 0) (64 * n + j) b =
      streamUpdate (fun i => (Std.chachaBlock key nonce n).getD i 0) j b := by
  induction b with
  | nil => intro j _; simp only [streamUpdate]
  | cons x t ih =>
    intro j hj
    rw [List.length_cons] at hj
    have e1 : (64 * n + j) / 64 = n := by omega
    have e2 : (64 * n + j) % 64 = j := by omega
    simp only [streamUpdate, e1, e2]
    rw [Nat.add_assoc, ih (j + 1) (by omega)]

/-- The comparison holds. -/
theorem C115_cipher_vector18 : tVector18.Holds := by
  have hk : (splitKeyIv .chacha20Poly1305 (tVector18.key ++ tVector18.iv)).1 = List.replicate 32 0 := by decide +kernel
  have hc : Std.crypto.chacha (sliceTo (List.replicate 32 0) chachaKeyLength) chachaNonce =
      .ok (fun i => (Std.chachaBlock (List.replicate 32 0) (List.replicate 16 0) (i / 64)).getD (i % 64) 0) := by
    have e : sliceTo (List.replicate 32 (0 : UInt8)) chachaKeyLength = List.replicate 32 0 := by decide +kernel
    rw [e]
    rfl
  have h0 : streamUpdate (fun i => (Std.chachaBlock (List.replicate 32 0) (List.replicate 16 0) (i / 64)).getD (i % 64) 0) 0
      (List.replicate chachaBlock 0) = tBlock0 := by
    have := streamUpdate_block (List.replicate 32 0) (List.replicate 16 0) 0 (List.replicate chachaBlock 0) 0 (by decide)
    rw [tBlock0_eq] at this
    exact this.trans (by decide +kernel)
  have h1 : ∀ b : Bytes, b.length ≤ 64 →
      streamUpdate (fun i => (Std.chachaBlock (List.replicate 32 0) (List.replicate 16 0) (i / 64)).getD (i % 64) 0) chachaBlock b =
        streamUpdate (fun i => tBlock1.getD i 0) 0 b := by
    intro b hb
    have := streamUpdate_block (List.replicate 32 0) (List.replicate 16 0) 1 b 0 (by omega)
    rw [tBlock1_eq] at this
    exact this
  refine ⟨?_, ?_, rfl⟩
  · show chachaEncrypt Std.crypto tVector18.plain (splitKeyIv .chacha20Poly1305 (tVector18.key ++ tVector18.iv)).1 = _
    unfold chachaEncrypt
    rw [hk, hc]
    simp only [bind, Except.bind, pure, Except.pure]
    rw [h0, h1 _ (by decide)]
    decide +kernel
  · show chachaDecrypt Std.crypto tVector18.cipher (splitKeyIv .chacha20Poly1305 (tVector18.key ++ tVector18.iv)).1 = _
    unfold chachaDecrypt
    dsimp only
    rw [hk, hc]
    simp only [bind, Except.bind, pure, Except.pure]
    rw [h0, h1 _ (by decide +kernel)]
    decide +kernel

end OSK
