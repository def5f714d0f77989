"""Which key files and public key lines of ssh-keygen does the model reproduce (C119, C120)?

    python3 exact_check.py DIR            writes DIR/Exact.lean and key files made by ssh-keygen
    lake env lean --run DIR/Exact.lean DIR/*.pw
                                          in lean/: reads every file, writes the list with the check number of the file, and prints
                                          "ok" if it is the same text, and likewise for the line in the public key file (up to two minutes per encrypted file: bcrypt is interpreted)
"""
import subprocess,os,sys
D=sys.argv[1]
os.makedirs(D,exist_ok=True)
TYPES=[("ed25519",),("rsa","-b","2048"),("ecdsa","-b","256"),("ecdsa","-b","521"),("dsa",)]
CIPHERS="3des-cbc aes128-cbc aes256-ctr aes256-gcm@openssh.com chacha20-poly1305@openssh.com".split()
def make(n,t,comment,pw,*a):
    subprocess.run(("ssh-keygen","-q","-t")+t+("-N",pw,"-C",comment,"-f",n)+a,check=True)
    open(n+".pw","w").write(pw)
for t in TYPES:
    for k in range(9):
        make(f"{D}/{'_'.join(t)}-{k}",t,"x"*k,"")
for c in CIPHERS:
    make(f"{D}/enc-{c}",("ed25519",),"c "+c,"pässw0rd","-a","1","-Z",c)
open(D+"/Exact.lean","w").write(r'''import Verif.Std.Crypto
import Verif.Model.KeyList
open OSK
def ext : Ext := ⟨fun _ _ => true, fun _ => []⟩
def inp (check : Nat) : Inputs := ⟨.ok [], check, fun n => List.replicate n 0⟩
def strOfS (s : String) : Str := s.toList.map (·.toNat)
def main (args : List String) : IO Unit := do
  for a in args do
    let f := String.ofList (a.toList.take (a.length - 3))
    let s := strOfS (← IO.FS.readFile f)
    let pw := strOfS (← IO.FS.readFile a)
    let line := strOfS (← IO.FS.readFile (f ++ ".pub"))
    match fromString ext .pub line.dropLast with
    | ⟨[], .ok k⟩ => IO.println s!"{if (packPublicString ext k true true).toOption = some line then "ok" else "DIFFERENT"} {f}.pub"
    | ⟨l, _⟩ => IO.println s!"READ {f}.pub {repr l}"
    match listFromString ext Std.crypto (inp 0) s (some pw) with
    | ⟨[], .ok kl⟩ =>
      let check := ((kl.decipherBytes.getD []).take 4).foldl (fun n x => 256 * n + x.toNat) 0
      match (packListString Std.crypto (inp check) kl (some pw) none false true).res with
      | .ok t => IO.println s!"{if s = t then "ok" else "DIFFERENT"} {f}"
      | .error x => IO.println s!"PACK {f} {repr x}"
    | ⟨l, _⟩ => IO.println s!"READ {f} {repr l}"
''')
