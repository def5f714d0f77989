import Verif.Std.Sha512
import Verif.Std.ChaCha
/-
Blowfish and `bcrypt_pbkdf` (openssh-portable, openbsd-compat/blowfish.c and bcrypt_pbkdf.c).
-/
namespace OSK.Std

/-- `2^n · arctan(1/x)`, but for a small error: the terms from `t / k` on, with alternating signs. -/
def arctanTerms (x2 : Nat) : Nat → Nat → Nat → Bool → Int → Int
  | 0, _, _, _, a => a
  | m + 1, t, k, plus, a => arctanTerms x2 m (t / x2) (k + 2) (!plus) (if plus then a + (t / k : Nat) else a - (t / k : Nat))

def arctanInv (x n : Nat) : Int := arctanTerms (x * x) n (2 ^ n / x) 1 true 0

/-- The first `n` bits of π after the point (Machin); 64 more are computed. -/
def piBits (n : Nat) : Nat :=
  ((16 * arctanInv 5 (n + 64) - 4 * arctanInv 239 (n + 64)).toNat / 2 ^ 64) % 2 ^ n

/-- The initial state: the digits of π; first the eighteen words of the `P` array, then the four boxes. -/
def blowfishInit : Array UInt32 :=
  let pi := piBits (1042 * 32)
  ((List.range 1042).map (fun i => UInt32.ofNat (pi / 2 ^ (32 * (1041 - i))))).toArray

/-- The function `F`. -/
def blowfishF (s : Array UInt32) (x : UInt32) : UInt32 :=
  let a := s.getD (18 + (x >>> 24).toNat) 0
  let b := s.getD (274 + ((x >>> 16) &&& 255).toNat) 0
  let c := s.getD (530 + ((x >>> 8) &&& 255).toNat) 0
  let d := s.getD (786 + (x &&& 255).toNat) 0
  ((a + b) ^^^ c) + d

/-- Rounds `i` and after it, `m` of them. -/
def blowfishRounds (s : Array UInt32) : Nat → Nat → UInt32 → UInt32 → UInt32 × UInt32
  | 0, _, l, r => (l, r)
  | m + 1, i, l, r => blowfishRounds s m (i + 1) (r ^^^ blowfishF s l ^^^ s.getD i 0) l

/-- `Blowfish_encipher` -/
def blowfishEnc (s : Array UInt32) (l r : UInt32) : UInt32 × UInt32 :=
  let (l, r) := blowfishRounds s 16 1 (l ^^^ s.getD 0 0) r
  (r ^^^ s.getD 17 0, l)

/-- Sixteen words from 64 bytes. -/
def words16 (b : Bytes) : Array UInt32 := ((pieces 4 16 b).map (fun w => UInt32.ofNat (beNat w))).toArray

/-- Mix a key of sixteen words into the `P` array. -/
def blowfishMixKey (key : Array UInt32) : Nat → Nat → Array UInt32 → Array UInt32
  | 0, _, s => s
  | m + 1, i, s => blowfishMixKey key m (i + 1) (s.setIfInBounds i (s.getD i 0 ^^^ key.getD (i % 16) 0))

/-- Replace the words of the state, two at a time, by encryptions of the last ones with the salt mixed in. -/
def blowfishFill (salt : Array UInt32) : Nat → Nat → UInt32 → UInt32 → Array UInt32 → Array UInt32
  | 0, _, _, _, s => s
  | m + 1, i, l, r, s =>
    let (l, r) := blowfishEnc s (l ^^^ salt.getD (i % 16) 0) (r ^^^ salt.getD ((i + 1) % 16) 0)
    blowfishFill salt m (i + 2) l r ((s.setIfInBounds i l).setIfInBounds (i + 1) r)

/-- `Blowfish_expandstate`; with a salt of zeros it is `Blowfish_expand0state`. -/
def blowfishExpand (s salt key : Array UInt32) : Array UInt32 := blowfishFill salt 521 0 0 0 (blowfishMixKey key 18 0 s)

def blowfishLoop (salt pass : Array UInt32) : Nat → Array UInt32 → Array UInt32
  | 0, s => s
  | n + 1, s => blowfishLoop salt pass n (blowfishExpand (blowfishExpand s #[] salt) #[] pass)

/-- `n` times the encryption of two words. -/
def blowfishTimes (s : Array UInt32) : Nat → UInt32 → UInt32 → UInt32 × UInt32
  | 0, l, r => (l, r)
  | n + 1, l, r => blowfishTimes s n (blowfishEnc s l r).1 (blowfishEnc s l r).2

/-- `bcrypt_hash` -/
def bcryptHash (pass salt : Bytes) : Bytes :=
  let p := words16 pass
  let t := words16 salt
  let s := blowfishLoop t p 64 (blowfishExpand blowfishInit t p)
  (pieces 8 4 (pb! "OxychromaticBlowfishSwatDynamite")).flatMap (fun b =>
    let r := blowfishTimes s 64 (UInt32.ofNat (beNat (b.take 4))) (UInt32.ofNat (beNat (b.drop 4)))
    (natToBE 4 r.1.toNat).reverse ++ (natToBE 4 r.2.toNat).reverse)

/-- The hashes of a block after the first one, combined. -/
def bcryptRoundsFrom (pass : Bytes) : Nat → Bytes → Bytes → Bytes
  | 0, _, out => out
  | n + 1, tmp, out =>
    let tmp := bcryptHash pass (sha512 tmp)
    bcryptRoundsFrom pass n tmp (xorBytes out tmp)

/-- Block number `count` of the key. -/
def bcryptBlock (pass salt : Bytes) (rounds count : Nat) : Bytes :=
  let tmp := bcryptHash (sha512 pass) (sha512 (salt ++ natToBE 4 count))
  bcryptRoundsFrom (sha512 pass) (rounds - 1) tmp tmp

/-- `bcrypt_pbkdf`: the bytes of the blocks are interleaved. -/
def bcryptPbkdf (pass salt : Bytes) (n rounds : Nat) : Bytes :=
  let stride := (n + 31) / 32
  let blocks := (List.range stride).map (fun i => bcryptBlock pass salt rounds (i + 1))
  (List.range n).map (fun j => (blocks.getD (j % stride) []).getD (j / stride) 0)

end OSK.Std
