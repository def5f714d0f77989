"""Compares the points of lean/Verif/Std/Curves.lean with openssl, and those OpenSSH takes (SshPoint in Spec/Curves.lean) with
ssh-keygen.

    python3 curve_check.py DIR        writes DIR/Points.lean
    lake env lean DIR/Points.lean     in lean/: prints the number of agreements and each disagreement
"""
import base64,os,random,re,struct,subprocess,sys
D=sys.argv[1]; os.makedirs(D,exist_ok=True)
random.seed(107)
C=[("1.2.840.10045.3.1.7","06082a8648ce3d030107","nistp256",2**256-2**224+2**192+2**96-1,0x5ac635d8aa3a93e7b3ebbd55769886bc651d06b0cc53b0f63bce3c3e27d2604b,32,
    0xffffffff00000000ffffffffffffffffbce6faada7179e84f3b9cac2fc632551),
   ("1.3.132.0.34","06052b81040022","nistp384",2**384-2**128-2**96+2**32-1,0xb3312fa7e23ee7e4988e056be3f82d19181d9c6efe8141120314088f5013875ac656398d8a2ed19d2a85c8edd3ec2aef,48,
    0xffffffffffffffffffffffffffffffffffffffffffffffffc7634d81f4372ddf581a0db248b0a77aecec196accc52973),
   ("1.3.132.0.35","06052b81040023","nistp521",2**521-1,0x51953eb9618e1c9a1f929a21a0b68540eea2da725b99b315f3b8b489918ef109e156193951ec7e937b1652c0bd3bb1bf073573df883d2c34f1ef451fd46b503f00,66,
    0x1fffffffffffffffffffffffffffffffffffffffffffffffffffffffffffffffffa51868783bf2f966b7fcc0148f709a5d03bb5c9b8899c47aebb6fb71e91386409)]
def der(tag,c):
    n=len(c); l=bytes([n]) if n<128 else b"\x81"+bytes([n]) if n<256 else b"\x82"+n.to_bytes(2,"big")
    return bytes([tag])+l+c
def openssl(oidhex,q):
    spki=der(0x30,der(0x30,bytes.fromhex("06072a8648ce3d0201"+oidhex))+der(3,b"\0"+q))
    r=subprocess.run(["openssl","pkey","-pubin","-inform","DER","-pubout","-outform","DER","-ec_conv_form","uncompressed"],input=spki,capture_output=True)
    return r.stdout if r.returncode==0 else None
def ssh(name,q):
    s=lambda b:struct.pack(">I",len(b))+b
    t=b"ecdsa-sha2-"+name.encode()
    open(D+"/k.pub","wb").write(t+b" "+base64.b64encode(s(t)+s(name.encode())+s(q))+b" c\n")
    return subprocess.run(["ssh-keygen","-l","-f",D+"/k.pub"],capture_output=True).returncode==0
out=["import Verif.Std.Curves","import Verif.Spec.Curves","open OSK OSK.Std OSK.Spec",
"def sshPoint (c : Nist) (q : Bytes) : Bool := match decodePoint c.oid q with",
"  | .ok (x, y) => q.head? == some 4 && decide (2 ^ ((c.order.log2 + 1) / 2) ≤ x) && decide (2 ^ ((c.order.log2 + 1) / 2) ≤ y) &&",
"      decide (x < c.order - 1) && decide (y < c.order - 1)",
"  | _ => false",
"def chk (i : Nat) (q : Bytes) (e : Option (Nat × Nat)) (s : Bool) : Bool := match nistCurves[i]? with",
"  | some c => ((decodePoint c.oid q).toOption == e) && (sshPoint c q == s)",
"  | none => false"]
L=lambda b:"["+",".join(map(str,b))+"]"
rows=[]
for i,(oid,oh,name,p,b,n,order) in enumerate(C):
    B=lambda v:v.to_bytes(n,"big")
    def pt(x):
        r=(x**3-3*x+b)%p; y=pow(r,(p+1)//4,p)
        return y if y*y%p==r else None
    xs=[0,1,2,3,5,8,p-1,p-2,p-3,p-4,order-1,order-2,order,2**(order.bit_length()//2),2**(order.bit_length()//2)-1,2**(order.bit_length()//2)+5]
    xs+=[random.randrange(p) for _ in range(25)]
    xs+=[random.randrange(2**(order.bit_length()//2-1),2**(order.bit_length()//2+1)) for _ in range(16)]
    qs=[b"\0",b"\4",b"\2",b"\3",b"\5",b"\4"*n]
    for x in xs:
        qs+=[b"\2"+B(x),b"\3"+B(x)]
        y=pt(x)
        if y is None: qs.append(b"\4"+B(x)+B(random.randrange(p))); continue
        qs+=[b"\4"+B(x)+B(y),b"\4"+B(x)+B(p-y if y else y),b"\4"+B(x)+B((y+1)%p),b"\5"+B(x)+B(y)]
        qs+=[b"\4"+B(x)+B(y)+b"\0",(b"\4"+B(x)+B(y))[:-1],b"\2"+B(x)+b"\0",b"\3"+B(x)[:-1],b"\4\0"+B(x)+b"\0"+B(y)]
        if x+p<256**n: qs+=[b"\4"+B(x+p)+B(y),b"\2"+B(x+p)]
        if y+p<256**n: qs+=[b"\4"+B(x)+B(y+p)]
    for q in qs:
        if q[0] not in (2,3,4): r=None   # refused by cryptography before OpenSSL
        else: r=openssl(oh,q)
        e="none" if r is None else f"(some ({int.from_bytes(r[-2*n:-n],'big')},{int.from_bytes(r[-n:],'big')}))"
        rows.append(f"chk {i} {L(q)} {e} {'true' if ssh(name,q) else 'false'}")
for j in range(0,len(rows),40):
    out.append(f"#eval (({'[' + ', '.join(rows[j:j+40]) + ']'} : List Bool).zipIdx {j}).filterMap (fun e => if e.1 then none else some e.2)")
open(D+"/Points.lean","w").write("\n".join(out)+"\n")
print(len(rows),"cases")
