import Verif.Model.Stream
/-
The documented wire formats: RFC 4253 section 6.6 (ssh-rsa, ssh-dss), RFC 5656 (ecdsa-sha2-*),
RFC 8709 (ssh-ed25519), OpenSSH's PROTOCOL.u2f (sk-*), PROTOCOL.certkeys (*-cert-v01@openssh.com) and
PROTOCOL.key with sshkey.c for the private parts.  Written out in full, without inheritance.
-/
namespace OSK.Spec

/-- Fields after the certified key in a certificate, up to the authority's key. -/
def certTail : FDict :=
  [(py! "serial", .struct ⟨true, [.int 8 false]⟩), (py! "type", .struct ⟨true, [.int 4 false]⟩),
   (py! "key_id", .pascal .string), (py! "valid_principals", .pascal .bytes),
   (py! "valid_after", .struct ⟨true, [.int 8 false]⟩),
   (py! "valid_before", .struct ⟨true, [.int 8 false]⟩),
   (py! "critical_options", .pascal .bytes), (py! "extensions", .pascal .bytes),
   (py! "reserved", .pascal .bytes), (py! "signature_key", .pascal .bytes)]

def rsaFields : FDict := [(py! "e", .pascal .mpint), (py! "n", .pascal .mpint)]
def dssFields : FDict :=
  [(py! "p", .pascal .mpint), (py! "q", .pascal .mpint), (py! "g", .pascal .mpint), (py! "y", .pascal .mpint)]
def ed25519Fields : FDict := [(py! "public", .pascal .bytes)]
def ecFields : FDict := [(py! "identifier", .pascal .string), (py! "q", .pascal .bytes)]
def skEcFields : FDict :=
  [(py! "identifier", .pascal .string), (py! "q", .pascal .bytes), (py! "application", .pascal .string)]
def skEd25519Fields : FDict := [(py! "public", .pascal .bytes), (py! "application", .pascal .string)]

/-- A certificate: nonce, certified public key, `certTail`, signature. -/
def certFields (base : FDict) : FDict :=
  [(py! "nonce", .pascal .bytes)] ++ base ++ certTail ++ [(py! "signature", .pascal .bytes)]

/-- The security key fields that follow the public part in a private key. -/
def skPrivTail : FDict :=
  [(py! "flags", .struct ⟨true, [.int 1 false]⟩), (py! "key_handle", .pascal .bytes),
   (py! "reserved", .pascal .bytes)]

/-- Key type name, public fields, private fields. -/
def keyTable : List (Str × FDict × Option FDict) :=
  [(py! "ssh-rsa", rsaFields, some
      [(py! "n", .pascal .mpint), (py! "e", .pascal .mpint), (py! "d", .pascal .mpint),
       (py! "iqmp", .pascal .mpint), (py! "p", .pascal .mpint), (py! "q", .pascal .mpint)]),
   (py! "ssh-ed25519", ed25519Fields, some
      [(py! "public", .pascal .bytes), (py! "private_public", .pascal .bytes)]),
   (py! "ssh-dss", dssFields, some (dssFields ++ [(py! "x", .pascal .mpint)])),
   (py! "ecdsa-sha2-nistp256", ecFields, some (ecFields ++ [(py! "d", .pascal .mpint)])),
   (py! "ecdsa-sha2-nistp384", ecFields, some (ecFields ++ [(py! "d", .pascal .mpint)])),
   (py! "ecdsa-sha2-nistp521", ecFields, some (ecFields ++ [(py! "d", .pascal .mpint)])),
   (py! "sk-ecdsa-sha2-nistp256@openssh.com", skEcFields, some (skEcFields ++ skPrivTail)),
   (py! "sk-ssh-ed25519@openssh.com", skEd25519Fields, some (skEd25519Fields ++ skPrivTail)),
   (py! "ssh-rsa-cert-v01@openssh.com", certFields rsaFields, none),
   (py! "ssh-ed25519-cert-v01@openssh.com", certFields ed25519Fields, none),
   (py! "ssh-dss-cert-v01@openssh.com", certFields dssFields, none),
   (py! "ecdsa-sha2-nistp256-cert-v01@openssh.com", certFields ecFields, none),
   (py! "ecdsa-sha2-nistp384-cert-v01@openssh.com", certFields ecFields, none),
   (py! "ecdsa-sha2-nistp521-cert-v01@openssh.com", certFields ecFields, none),
   (py! "sk-ssh-ed25519-cert-v01@openssh.com", certFields skEd25519Fields, none),
   (py! "sk-ecdsa-sha2-nistp256-cert-v01@openssh.com", certFields skEcFields, none)]

/-- Public fields of a key type. -/
def publicFields (t : Str) : Option FDict := (dget keyTable t).map (fun r => r.1)

/-- Private fields of a key type. -/
def privateFields (t : Str) : Option FDict := (dget keyTable t).bind (fun r => r.2)

/-- Names of the certificate key types. -/
def isCertType (t : Str) : Bool := (py! "-cert-v01@openssh.com").isSuffixOf t

end OSK.Spec
