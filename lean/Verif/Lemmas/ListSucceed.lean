import Verif.Lemmas.ListWire
import Verif.Lemmas.ListRound
import Verif.Props.Cipher
/-
When `PrivateKeyList.pack_bytes` succeeds.
-/
namespace OSK
open Spec

theorem uint_exists {n : Nat} (h : n < 2 ^ 32) : ∃ w : Bytes, w.length = 4 ∧ digitSum w = n :=
  ⟨natToBE 4 n, by simp, by rw [digitSum_eq, beNat_natToBE_of_lt (by omega)]⟩

theorem prefixed_exists {b : Bytes} (h : b.length < 2 ^ 32) : ∃ w, Prefixed 4 b w ∧ w.length = b.length + 4 := by
  obtain ⟨p, h1, h2⟩ := uint_exists h
  exact ⟨p ++ b, ⟨p, h1, h2, rfl⟩, by rw [List.length_append]; omega⟩

theorem pubsOf_succeeds {override : Bool} {sel : List Pair}
    (h : ∀ p ∈ sel, ∃ b, packPublicBytes (if override then p.priv else p.pub) = .ok b ∧ b.length < 2 ^ 32) :
    ∃ w, pubsOf override sel = .ok w := by
  induction sel with
  | nil => exact ⟨[], rfl⟩
  | cons p t ih =>
    obtain ⟨b, hb, hl⟩ := h p List.mem_cons_self
    obtain ⟨w, hw, -⟩ := prefixed_exists hl
    obtain ⟨r, hr⟩ := ih (fun q hq => h q (List.mem_cons_of_mem _ hq))
    unfold pubsOf
    rw [hb, hr]
    exact ⟨w ++ r, by
      show (packFI (.pascal .bytes) (.bytes b) >>= _) = _
      rw [packFI_bytes_iff.2 ⟨b, rfl, hw⟩]; rfl⟩

theorem privsOf_succeeds {sel : List Pair} {privs : List Bytes}
    (h : List.Forall₂ (fun (p : Pair) b => packPrivateBytes p.priv = .ok b) sel privs) :
    privsOf sel = .ok privs.flatten := by
  induction h with
  | nil => rfl
  | cons h1 _ ih => unfold privsOf; rw [h1, ih]; rfl

theorem packHeader_succeeds {cs ks : List Char} {ob : Bytes} {n : Nat} (hc : (utf8 cs).length < 2 ^ 32)
    (hk : (utf8 ks).length < 2 ^ 32) (ho : ob.length < 2 ^ 32) (hn : n < 2 ^ 31) :
    ∃ w, packDict listHeaderFmt (listHeader (.str (strOf cs)) (.str (strOf ks)) ob n) = .ok w := by
  obtain ⟨wc, h1, -⟩ := prefixed_exists hc
  obtain ⟨wk, h2, -⟩ := prefixed_exists hk
  obtain ⟨wo, h3, -⟩ := prefixed_exists ho
  unfold listHeaderFmt
  refine ⟨_, packDict_cons_ok_iff.2 ⟨_, _, _, rfl, (by decide +kernel : packFI (.struct fmt15s) (.bytes authMagic) = .ok magic),
    packDict_cons_ok_iff.2 ⟨_, _, _, rfl, packFI_string_iff.2 ⟨cs, rfl, h1⟩,
    packDict_cons_ok_iff.2 ⟨_, _, _, rfl, packFI_string_iff.2 ⟨ks, rfl, h2⟩,
    packDict_cons_ok_iff.2 ⟨_, _, _, rfl, packFI_bytes_iff.2 ⟨ob, rfl, h3⟩,
    packDict_cons_ok_iff.2 ⟨_, _, _, rfl, pack_int.2 ⟨⟨by omega, by omega⟩, rfl⟩, rfl, rfl⟩, rfl⟩, rfl⟩, rfl⟩, rfl⟩⟩

theorem packPlain_succeeds {inp : Inputs} {self : List Pair} {l : List Int} {sel : List Pair} {privs : List Bytes}
    {cipher : Val} {cc : CipherCls} (hs : List.Forall₂ (At self) l sel)
    (hp : List.Forall₂ (fun (p : Pair) b => packPrivateBytes p.priv = .ok b) sel privs)
    (hc : getCipherClass cipher = .ok cc) (hi : inp.checkInt < 2 ^ 32) :
    ∃ plain, packPlain inp self l cipher = .ok plain ∧ plain.length % cc.blockSize = 0 ∧
      plain.length < 8 + privs.flatten.length + cc.blockSize := by
  obtain ⟨w1, l1, d1⟩ := uint_exists hi
  have hh : packDict decipherHeaderFmt
      [(py! "check_int_1", .int inp.checkInt), (py! "check_int_2", .int inp.checkInt)] = .ok (w1 ++ (w1 ++ [])) := by
    unfold decipherHeaderFmt
    exact packDict_cons_ok_iff.2 ⟨_, _, _, rfl, pack_uint.2 ⟨l1, by rw [d1]⟩,
      packDict_cons_ok_iff.2 ⟨_, _, _, rfl, pack_uint.2 ⟨l1, by rw [d1]⟩, rfl, rfl⟩, rfl⟩
  have e : ∃ plain, packPlain inp self l cipher = .ok plain := by
    unfold packPlain
    rw [hh, privBytes_sel hs, privsOf_succeeds hp, hc]
    exact ⟨_, rfl⟩
  obtain ⟨plain, e⟩ := e
  refine ⟨plain, e, ?_⟩
  obtain ⟨privs', hp', c, k, hl, -, hk, hm, rfl⟩ := packPlain_ok e hs hc
  have : privs' = privs := by
    clear hs e hm
    induction hp generalizing privs' with
    | nil => cases hp'; rfl
    | cons h1 _ ih =>
      cases hp' with
      | cons h2 h3 =>
        rw [h1] at h2
        cases h2
        rw [ih _ h3]
  subst this
  refine ⟨hm, ?_⟩
  simp only [List.length_append, countUp, List.length_map, List.length_range]
  omega

/-- The steps of packing, when all succeed. -/
theorem packing_succeeds {x1 : Eff VDict} {x2 : Except Exn KdfCls} {x3 : KdfCls → VDict → Except Exn Bytes}
    {x4 : Except Exn Bytes} {x5 : Eff Str} {x6 : Except Exn CipherCls} {x7 : KdfCls → VDict → Eff KdfOptions}
    {x8 : CipherCls → KdfOptions → Str → Bytes → Except Exn Bytes} {x9 : CipherCls → Bytes → Except Exn Bytes}
    {opts kc fr plain pass c o y t} (h1 : x1.res = .ok opts) (h2 : x2 = .ok kc) (h3 : x3 kc opts = .ok fr)
    (h4 : x4 = .ok plain) (h5 : x5.res = .ok pass) (h6 : x6 = .ok c) (h7 : x7 kc opts = pure o)
    (h8 : x8 c o pass plain = .ok y) (h9 : x9 c y = .ok t) :
    (do
      let opts ← x1
      let kc ← Eff.lift x2
      let fr ← Eff.lift (x3 kc opts)
      let plain ← Eff.lift x4
      let pass ← x5
      let c ← Eff.lift x6
      let o ← x7 kc opts
      let y ← Eff.lift (x8 c o pass plain)
      let t ← Eff.lift (x9 c y)
      pure (fr ++ t) : Eff Bytes).res = .ok (fr ++ t) := by
  subst h2 h4 h6
  refine Eff.bind_res_ok_iff.2 ⟨_, h1, ?_⟩
  rw [Eff.lift_ok_bind, h3, Eff.lift_ok_bind, Eff.lift_ok_bind]
  refine Eff.bind_res_ok_iff.2 ⟨_, h5, ?_⟩
  rw [Eff.lift_ok_bind, h7, Eff.pure_bind, h8, Eff.lift_ok_bind, h9, Eff.lift_ok_bind]
  rfl

theorem chooseKdfOptions_uses {inp : Inputs} {self : KeyList} {retain : Bool} {salt : Bytes} {rounds : Nat}
    (h : Uses inp self retain salt rounds) :
    ∃ opts, (chooseKdfOptions inp self.kdfOptions (.str (py! "bcrypt")) retain).res = .ok opts ∧
      dget opts (py! "salt") = some (.bytes salt) ∧ dget opts (py! "rounds") = some (.int rounds) := by
  have hk : getKdfClass (.str (py! "bcrypt")) = .ok .bcrypt := by decide +kernel
  have gen : (generateKdf inp.tokenBytes .bcrypt).res = .ok
      ⟨.bcrypt, [(py! "salt", .bytes (inp.tokenBytes 16)), (py! "rounds", .int 16)]⟩ := rfl
  rcases h with ⟨o, rfl, h1, h2, h3⟩ | ⟨h, rfl, rfl⟩
  · exact ⟨o.data, by rw [h1]; rfl, h2, h3⟩
  · refine ⟨[(py! "salt", .bytes (inp.tokenBytes 16)), (py! "rounds", .int 16)], ?_, rfl, rfl⟩
    have : chooseKdfOptions inp self.kdfOptions (.str (py! "bcrypt")) retain = (do
        let c ← Eff.lift (getKdfClass (.str (py! "bcrypt")))
        let o ← generateKdf inp.tokenBytes c
        pure o.data) := by
      unfold chooseKdfOptions
      split
      · rename_i h1 h2
        rcases h with h | h
        · cases h
        · rw [h] at h2; cases h2
      · rfl
    rw [this, hk, Eff.lift_ok_bind]
    exact Eff.bind_res_ok_iff.2 ⟨_, gen, rfl⟩

theorem choosePassphrase_enters {inp : Inputs} {passphrase : Option Str} {p : Str} (h : Enters inp passphrase p) :
    (choosePassphrase inp false passphrase).res = .ok p := by
  rcases h with rfl | ⟨rfl, h⟩
  · rfl
  · simp [choosePassphrase, getpass, h]

theorem deriveKey_dget {cr : Crypto} {opts : VDict} {salt : Bytes} {rounds : Int} (p : Str) (n : Nat)
    (h1 : dget opts (py! "salt") = some (.bytes salt)) (h2 : dget opts (py! "rounds") = some (.int rounds)) :
    deriveKey cr ⟨.bcrypt, opts⟩ p n = deriveKey cr (bcryptOptions salt rounds) p n := by
  have e1 : getItem opts (py! "salt") = .ok (.bytes salt) := by simp only [getItem, h1]
  have e2 : getItem opts (py! "rounds") = .ok (.int rounds) := by simp only [getItem, h2]
  rw [deriveKey_bcrypt]
  unfold deriveKey
  simp only [e1, e2]
  rfl

theorem pack_from_steps {cr : Crypto} {inp : Inputs} {self : KeyList} {passphrase : Option Str}
    {indices : Option (List Int)} {override retain : Bool} {cs ks : List Char} {sel : List Pair}
    {privs : List Bytes} {opts : VDict} {kc : KdfCls} {cc : CipherCls} {ob : Bytes} {pass : Str}
    (hn : listCipherKdf self.header = (.str (strOf cs), .str (strOf ks)))
    (hcl : (utf8 cs).length < 2 ^ 32) (hkl : (utf8 ks).length < 2 ^ 32)
    (hsel : Selection self.pairs indices sel) (hcount : sel.length < 2 ^ 31)
    (hpub : ∀ p ∈ sel, ∃ b, packPublicBytes (if override then p.priv else p.pub) = .ok b ∧ b.length < 2 ^ 32)
    (hpriv : List.Forall₂ (fun (p : Pair) b => packPrivateBytes p.priv = .ok b) sel privs)
    (hi : inp.checkInt < 2 ^ 32)
    (ho : (chooseKdfOptions inp self.kdfOptions (.str (strOf ks)) retain).res = .ok opts)
    (hkc : getKdfClass (.str (strOf ks)) = .ok kc) (hcc : getCipherClass (.str (strOf cs)) = .ok cc)
    (hob : packDict (kdfFmt kc) opts = .ok ob) (hobl : ob.length < 2 ^ 32)
    (hpass : (choosePassphrase inp (kc = .none) passphrase).res = .ok pass)
    (henc : ∀ plain : Bytes, plain.length % cc.blockSize = 0 →
      plain.length < 8 + privs.flatten.length + cc.blockSize →
      ∃ y, encrypt cr cc ⟨kc, opts⟩ pass plain = .ok y ∧ (bodyTag cc y).1.length < 2 ^ 32) :
    ∃ w, (packKeyList cr inp self passphrase indices override retain).res = .ok w := by
  have hsel' := selection_iff.1 hsel
  have hlen := hsel'.length_eq
  generalize hl : indices.getD (allIndices self.pairs.length) = l at hsel' hlen
  rw [packKeyList_eq cr inp self passphrase indices override retain hn hl]
  obtain ⟨hw, hhw⟩ := packHeader_succeeds (ob := ob) hcl hkl hobl (n := l.length) (by omega)
  obtain ⟨pw, hpw⟩ := pubsOf_succeeds hpub
  obtain ⟨plain, hpl, hmod, hlt⟩ := packPlain_succeeds hsel' hpriv hcc hi
  obtain ⟨y, hy, hyl⟩ := henc plain hmod hlt
  obtain ⟨wb, hwb, -⟩ := prefixed_exists hyl
  have hfront : packFront self.pairs override l (.str (strOf cs)) (.str (strOf ks)) kc opts = .ok (hw ++ pw) := by
    unfold packFront
    rw [hob, pubBytes_sel hsel', hpw]
    show (packDict listHeaderFmt _ >>= _) = _
    rw [hhw]
    rfl
  have htail : packTail cc y = .ok (wb ++ (bodyTag cc y).2) := by
    unfold packTail
    rw [packFI_bytes_iff.2 ⟨_, rfl, hwb⟩]
    rfl
  have hkn : decide (Val.str (strOf ks) = .str (py! "none")) = decide (kc = .none) := by
    simp only [kdf_none_iff hkc]
  exact ⟨_, packing_succeeds ho hkc hfront hpl (by rw [hkn]; exact hpass) hcc (newKdf_packed hob).1 hy htail⟩

theorem chooseKdfOptions_none (inp : Inputs) (options : Option KdfOptions) (retain : Bool) :
    ∃ opts, (chooseKdfOptions inp options (.str (py! "none")) retain).res = .ok opts := by
  have hk : getKdfClass (.str (py! "none")) = .ok .none := by decide +kernel
  unfold chooseKdfOptions
  split
  · exact ⟨_, rfl⟩
  · rw [hk, Eff.lift_ok_bind]
    exact ⟨_, Eff.bind_res_ok_iff.2 ⟨_, rfl, rfl⟩⟩

theorem encrypt_none (cr : Crypto) (o : KdfOptions) (p : Str) (x : Bytes) : encrypt cr .none o p x = .ok x := rfl

end OSK
