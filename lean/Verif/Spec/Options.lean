import Verif.Model.Cert
/-
The names of certificate options in OpenSSH's PROTOCOL.certkeys, sections "Critical options" and "Extensions"
(confirmed with the output of ssh-keygen).
-/
namespace OSK.Spec

/-- The name that OpenSSH gives to the option. -/
def openSSHName : CertOption → Str
  | .forceCommand => py! "force-command"
  | .sourceAddress => py! "source-address"
  | .verifyRequired => py! "verify-required"
  | .noTouchRequired => py! "no-touch-required"
  | .permitX11Forwarding => py! "permit-X11-forwarding"
  | .permitAgentForwarding => py! "permit-agent-forwarding"
  | .permitPortForwarding => py! "permit-port-forwarding"
  | .permitPty => py! "permit-pty"
  | .permitUserRc => py! "permit-user-rc"

end OSK.Spec
