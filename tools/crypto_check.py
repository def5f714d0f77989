"""Compares the standard algorithms (lean/Verif/Std) with hashlib, openssl and ssh-keygen.

    python3 crypto_check.py DIR           writes DIR/Vectors.lean, DIR/Files.lean and encrypted keys made by ssh-keygen
    lake env lean DIR/Vectors.lean        in lean/: prints "ok" for every vector
    lake env lean --run DIR/Files.lean DIR/*.pw
                                          reads every key with the model, compares it with the unencrypted copy, reads it with a
                                          wrong passphrase and packs it again (about a minute per file: bcrypt is interpreted)
    python3 crypto_check.py DIR verify    has ssh-keygen read what the model packed
"""
import subprocess,hashlib,os,sys
D=sys.argv[1]
TYPES=[("ed25519",),("rsa","-b","2048"),("ecdsa","-b","256"),("ecdsa","-b","521"),("dsa",)]
CIPHERS="3des-cbc aes128-cbc aes192-cbc aes256-cbc aes128-ctr aes192-ctr aes256-ctr aes128-gcm@openssh.com aes256-gcm@openssh.com chacha20-poly1305@openssh.com".split()
names=[(t,c,f"{D}/{'_'.join(t)}-{c}") for t in TYPES for c in CIPHERS]
def run(*a): return subprocess.run(a,capture_output=True,text=True)
if sys.argv[2:]==["verify"]:
    bad=0
    for t,c,n in names:
        os.chmod(n+".out",0o600)
        a=run("ssh-keygen","-y","-P",open(n+".pw").read(),"-f",n+".out").stdout.split()
        b=run("ssh-keygen","-y","-P","","-f",n+".plain").stdout.split()
        w=run("ssh-keygen","-y","-P","wrong","-f",n+".out").returncode
        if not a or a!=b or w==0: bad+=1; print("BAD",n)
    print(len(names),"files,",bad,"disagreements")
    sys.exit(bad!=0)
os.makedirs(D,exist_ok=True)
def L(b): return "["+",".join(map(str,b))+"]"
out=["import Verif.Std.Crypto","open OSK OSK.Std","def chk (n : String) (a b : Bytes) : IO Unit := IO.println (if a = b then s!\"ok {n}\" else s!\"BAD {n}\")",
"def chkE (n : String) (a : Except Exn Bytes) (b : Bytes) : IO Unit := match a with | .ok a => chk n a b | .error _ => IO.println s!\"ERR {n}\""]
for n in [0,1,3,55,111,112,127,128,129,200,256]:
    m=os.urandom(n)
    out.append(f"#eval chk \"sha{n}\" (sha512 {L(m)}) {L(hashlib.sha512(m).digest())}")
def ossl(c,key,iv,data,dec=False):
    return subprocess.run(["openssl","enc","-"+c,"-K",key.hex(),"-iv",iv.hex(),"-nopad"]+(["-d"] if dec else []),input=data,capture_output=True,check=True).stdout
for bits in (128,192,256):
    for mode in ("cbc","ctr"):
        for n in (0,16,48,) + ((1,37) if mode=="ctr" else ()):
            k=os.urandom(bits//8); iv=os.urandom(16) if n!=48 else b"\xff"*15+b"\xfe"; d=os.urandom(n)
            e=ossl(f"aes-{bits}-{mode}",k,iv,d)
            out.append(f"#eval chkE \"aes{bits}{mode}{n}\" (crypto.symEnc .aes .{mode} {L(k)} {L(iv)} {L(d)}) {L(e)}")
            out.append(f"#eval chkE \"aes{bits}{mode}{n}d\" (crypto.symDec .aes .{mode} {L(k)} {L(iv)} {L(e)}) {L(d)}")
for n in (0,8,40):
    k=os.urandom(24); iv=os.urandom(8); d=os.urandom(n)
    e=ossl("des-ede3-cbc",k,iv,d)
    out.append(f"#eval chkE \"3des{n}\" (crypto.symEnc .tripleDes .cbc {L(k)} {L(iv)} {L(d)}) {L(e)}")
    out.append(f"#eval chkE \"3des{n}d\" (crypto.symDec .tripleDes .cbc {L(k)} {L(iv)} {L(e)}) {L(d)}")
for n in (0,1,64,200):
    k=os.urandom(32); iv=os.urandom(16); d=bytes(n)
    e=ossl("chacha20",k,iv,d)
    out.append(f"#eval chkE \"chacha{n}\" ((crypto.chacha {L(k)} {L(iv)}).map (fun ks => (List.range {n}).map ks)) {L(e)}")
for n in (0,1,15,16,17,64,100):
    k=os.urandom(32); d=os.urandom(n)
    e=subprocess.run(["openssl","mac","-macopt","hexkey:"+k.hex(),"-binary","Poly1305"],input=d,capture_output=True,check=True).stdout
    out.append(f"#eval chk \"poly{n}\" (poly1305 {L(k)} {L(d)}) {L(e)}")
open(D+"/Vectors.lean","w").write("\n".join(out)+"\n")
for t,c,n in names:
    subprocess.run(("ssh-keygen","-q","-t")+t+("-N","","-C","c "+c,"-f",n),check=True)
    os.rename(n,n+".plain")
    open(n+".enc","w").write(open(n+".plain").read())
    os.chmod(n+".enc",0o600)
    pw="p\u00e4ssw0rd "+c
    open(n+".pw","w").write(pw)
    subprocess.run(["ssh-keygen","-q","-p","-P","","-N",pw,"-a","1","-Z",c,"-f",n+".enc"],check=True,stdout=subprocess.DEVNULL)
open(D+"/Files.lean","w").write(r'''import Verif.Std.Crypto
import Verif.Model.KeyList
open OSK
def ext : Ext := ⟨fun _ _ => true, fun _ => []⟩
def inp : Inputs := ⟨.ok [], 305419896, fun n => (List.range n).map (fun i => UInt8.ofNat (37 * i + 11))⟩
def strOfS (s : String) : Str := s.toList.map (·.toNat)
def main (args : List String) : IO Unit := do
  for a in args do
    let f := String.ofList (a.toList.take (a.length - 3))
    let enc ← IO.FS.readFile (f ++ ".enc")
    let plain ← IO.FS.readFile (f ++ ".plain")
    let pw := strOfS (← IO.FS.readFile (f ++ ".pw"))
    let e := listFromString ext Std.crypto inp (strOfS enc) (some pw)
    let p := listFromString ext Std.crypto inp (strOfS plain) none
    let w := listFromString ext Std.crypto inp (strOfS enc) (some (pw ++ [33]))
    match e.res, p.res with
    | .ok a, .ok b =>
      IO.println s!"{if a.pairs.map (·.priv.params) = b.pairs.map (·.priv.params) ∧ a.pairs.length = 1 then "ok" else "BAD"} {f} {repr e.log} wrong: {match w.res with | .ok _ => "READ" | .error x => (repr x).pretty}"
      let pk := packListString Std.crypto inp a (some pw) none true true
      match pk.res with
      | .ok s => IO.FS.writeFile (f ++ ".out") (String.ofList (s.map Char.ofNat))
      | .error x => IO.println s!"PACK {repr x}"
    | .error x, _ => IO.println s!"ERR {f} {repr x}"
    | _, .error x => IO.println s!"ERRP {f} {repr x}"
''')
