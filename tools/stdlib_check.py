"""Compares the models of Python's runtime (lean/Verif/Py and a few helpers) with CPython's standard library.

Writes Diff.lean; `cd lean && lake env lean <path>/Diff.lean` then prints the number of disagreements per table
(all should be 0; the code point table prints true).
"""
import random, base64, struct
random.seed(7)
def B(b): return "["+",".join(map(str,b))+"]"
def S(s): return "["+",".join(str(ord(c)) for c in s)+"]"
def opt(f,*a):
    try: return f(*a)
    except Exception as e: return e
def rb(n): return bytes(random.randrange(256) for _ in range(n))
out=["import Verif.Model.KeyList","import Verif.Model.Cert","import Verif.Model.Json","import Verif.Model.Args","import Verif.Model.UserDict","import Verif.Model.StructText","open OSK","set_option maxRecDepth 100000"]
N=0
def table(name,ty,rows,pred,step=150):
    global N
    # chunk
    for i in range(0,len(rows),step):
        ch=rows[i:i+step]; N+=len(ch)
        out.append(f"def {name}{i} : List ({ty}) := ["+",\n".join(ch)+"]")
        out.append(f"#eval ({name}{i}.filter (fun r => !({pred}))).length")
def ob(x): return "none" if isinstance(x,Exception) else f"some {x}"
# base64 decode
al=b"ABCDwxyz0189+/="
rows=[]
for _ in range(1500):
    k=random.random()
    if k<.5: b=bytes(random.choice(al) for _ in range(random.randrange(14)))
    elif k<.8:
        b=bytearray(base64.b64encode(rb(random.randrange(12))))
        for _ in range(random.randrange(3)):
            if b: b.insert(random.randrange(len(b)+1),random.choice(b"=A \n!\xff"))
        b=bytes(b)
    else: b=rb(random.randrange(10))
    r=opt(base64.b64decode,b)
    rows.append(f"({B(b)},{ob(r if isinstance(r,Exception) else B(r))})")
table("b64d","Bytes × Option Bytes",rows,"(b64decode r.1).toOption == r.2")
rows=[]
for _ in range(300):
    b=rb(random.randrange(20)); rows.append(f"({B(b)},{B(base64.b64encode(b))})")
table("b64e","Bytes × Bytes",rows,"b64encode r.1 == r.2")
# utf8
rows=[]
def ru():
    k=random.random()
    if k<.3:return random.randrange(0x80)
    if k<.5:return random.choice([0x7f,0x80,0x7ff,0x800,0xffff,0x10000,0x10ffff,0xd7ff,0xe000,0xfffd])
    if k<.9:return random.randrange(0xd800) 
    return random.randrange(0x110000)
for _ in range(900):
    s="".join(chr(ru()) for _ in range(random.randrange(5)))
    r=opt(s.encode)
    rows.append(f"({S(s)},{ob(r if isinstance(r,Exception) else B(r))})")
table("u8e","Str × Option Bytes",rows,"utf8Encode? r.1 == r.2")
rows=[]
for _ in range(1500):
    k=random.random()
    if k<.6:
        b=bytearray("".join(chr(c) for c in (ru() for _ in range(random.randrange(4))) if not 0xd800<=c<0xe000).encode())
        for _ in range(random.randrange(3)):
            if b: 
                i=random.randrange(len(b)); 
                if random.random()<.5: b[i]=random.choice([0x80,0xbf,0xc0,0xc1,0xc2,0xe0,0xed,0xa0,0x9f,0xf0,0x90,0x8f,0xf4,0xf5,0x41])
                else: del b[i]
        b=bytes(b)
    else: b=bytes(random.choice([0x80,0xbf,0xc1,0xc2,0xdf,0xe0,0xe1,0xed,0xef,0xa0,0x9f,0xf0,0x90,0x8f,0xf4,0xf5,0x41,0xff]) for _ in range(random.randrange(6)))
    r=opt(b.decode)
    rows.append(f"({B(b)},{ob(r if isinstance(r,Exception) else S(r))})")
table("u8d","Bytes × Option Str",rows,"utf8Decode? r.1 == r.2")
# splitlines, split
rows=[]
brk="\n\r\x0b\x0c\x1c\x1d\x1e\x1f\x85   ab\t\xa0"
for _ in range(900):
    s="".join(random.choice(brk) for _ in range(random.randrange(9)))
    rows.append(f"({S(s)},[{','.join(S(x) for x in s.splitlines())}])")
table("spl","Str × List Str",rows,"splitLines r.1 == r.2")
rows=[]
for _ in range(600):
    s="".join(random.choice("  ab\n") for _ in range(random.randrange(9))); n=random.randrange(4)
    rows.append(f"(({S(s)},{n}),[{','.join(S(x) for x in s.split(' ',maxsplit=n))}])")
table("spm","(Str × Nat) × List Str",rows,"splitSpaceMax r.1.2 r.1.1 == r.2")
# every code point: which split lines
brks=[c for c in range(0x110000) if len(("a"+chr(c)+"b").splitlines())==2]
out.append(f"#eval ((List.range 0x110000).filter isLineBreak == {brks})")
# slices
rows=[]
for _ in range(900):
    l=rb(random.randrange(7)); i=random.randrange(-9,10); j=random.randrange(-9,10)
    ix=opt(lambda:l[i])
    rows.append(f"(({B(l)},({i}:Int),({j}:Int)),({B(l[:i])},{B(l[i:])},{B(l[i:j])},{ob(ix) if isinstance(ix,Exception) else 'some '+str(ix)}))")
table("slc","(Bytes × Int × Int) × (Bytes × Bytes × Bytes × Option UInt8)",rows,
 "sliceTo r.1.1 r.1.2.1 == r.2.1 && sliceFrom r.1.1 r.1.2.1 == r.2.2.1 && slice r.1.1 r.1.2.1 r.1.2.2 == r.2.2.2.1 && (pyIndex r.1.1 r.1.2.1).toOption == r.2.2.2.2")
# ints
rows=[]
def ri():
    k=random.random()
    if k<.4:return random.randrange(-300,300)
    p=1<<(8*random.randrange(5)); q=random.choice([p,p//2,p*2]); 
    return random.choice([1,-1])*(q+random.randrange(-2,3))
for _ in range(1200):
    v=ri(); n=random.randrange(1,6)
    r=opt(lambda:v.to_bytes(n,'big',signed=True))
    rows.append(f"((({v}:Int),{n}),({v.bit_length()},{ob(r if isinstance(r,Exception) else B(r))}))")
table("tbs","(Int × Nat) × (Nat × Option Bytes)",rows,"bitLength r.1.1 == r.2.1 && (toBytesSigned r.1.2 r.1.1).toOption == r.2.2")
rows=[]
for _ in range(600):
    v=abs(ri()); n=random.randrange(-1,6)
    r=opt(lambda:v.to_bytes(n,'big'))
    rows.append(f"(({v},({n}:Int)),{ob(r if isinstance(r,Exception) else B(r))})")
table("tbu","(Nat × Int) × Option Bytes",rows,"(toBytesUnsigned r.1.2 r.1.1).toOption == r.2")
rows=[]
for _ in range(600):
    b=rb(random.randrange(6))
    rows.append(f"({B(b)},(({int.from_bytes(b,'big',signed=True)}:Int),({int.from_bytes(b,'big')}:Nat)))")
table("fby","Bytes × (Int × Nat)",rows,"beInt r.1 == r.2.1 && beNat r.1 == r.2.2")
# struct
codes={'b':(1,'true'),'B':(1,'false'),'h':(2,'true'),'H':(2,'false'),'i':(4,'true'),'I':(4,'false'),'q':(8,'true'),'Q':(8,'false')}
rows=[]
for _ in range(900):
    c=random.choice(list(codes)); e=random.choice('<>'); sz,sg=codes[c]; v=random.choice([ri(),random.choice([-1,1])*(2**(8*sz)//random.choice([1,2]))+random.randrange(-1,2)])
    r=opt(lambda:struct.pack(e+c,v))
    rows.append(f"((({'true' if e=='>' else 'false'},{sz},{sg}),({v}:Int)),{ob(r if isinstance(r,Exception) else B(r))})")
table("stp","((Bool × Nat × Bool) × Int) × Option Bytes",rows,"(SFmt.pack1 ⟨r.1.1.1,[.int r.1.1.2.1 r.1.1.2.2]⟩ (.int r.1.2)).toOption == r.2")
rows=[]
for _ in range(600):
    c=random.choice(list(codes)); e=random.choice('<>'); sz,sg=codes[c]; b=rb(sz+3)
    v,t=struct.unpack(e+c+'3s',b)
    rows.append(f"((({'true' if e=='>' else 'false'},{sz},{sg}),{B(b)}),(({v}:Int),{B(t)}))")
table("stu","((Bool × Nat × Bool) × Bytes) × (Int × Bytes)",rows,"decide (SFmt.unpack ⟨r.1.1.1,[.int r.1.1.2.1 r.1.1.2.2,.str 3]⟩ r.1.2 = [.int r.2.1,.bytes r.2.2])")
rows=[]
for _ in range(300):
    b=rb(random.randrange(20)); rows.append(f"({B(b)},{B(struct.pack('15s',b))})")
table("sts","Bytes × Bytes",rows,"(SFmt.pack1 fmt15s (.bytes r.1)).toOption == some r.2")
# str order and sorted
rows=[]
for _ in range(600):
    f=lambda:"".join(random.choice("abé￿\U00010000") for _ in range(random.randrange(4)))
    a,b=f(),f(); l=[f() for _ in range(random.randrange(6))]
    rows.append(f"(({S(a)},{S(b)},[{','.join(map(S,l))}]),({'true' if a<b else 'false'},[{','.join(map(S,sorted(l)))}]))")
table("ord","(Str × Str × List Str) × (Bool × List Str)",rows,"strLt r.1.1 r.1.2.1 == r.2.1 && sortedStrs r.1.2.2 == r.2.2")
# dict update order, equality
rows=[]
for _ in range(400):
    f=lambda:{random.randrange(5):random.randrange(3) for _ in range(random.randrange(5))}
    a,b=f(),f(); D=lambda d:"["+",".join(f"({k},{v})" for k,v in d.items())+"]"
    rows.append(f"(({D(a)},{D(b)}),({D({**a,**b})},{'true' if a==b else 'false'}))")
table("dct","(List (Nat×Nat) × List (Nat×Nat)) × (List (Nat×Nat) × Bool)",rows,"dupdate r.1.1 r.1.2 == r.2.1 && deq r.1.1 r.1.2 == r.2.2")
# negative mod
rows=[]
for _ in range(200):
    n=random.randrange(200); b=random.choice([8,16]); rows.append(f"(({n},{b}),{-n%b})")
table("pad","(Nat×Nat)×Nat",rows,"paddingLength r.1.1 r.1.2 == r.2")
# JSON (with the encoder of __main__.py), repr of bytes, digits, universal newlines
import json, io, sys
class Inst:
    def __init__(self,d): self.__dict__=d
class Enc(json.JSONEncoder):
    def default(self,o):
        if hasattr(o,'__dict__'): return o.__dict__
        return str(o)
def rs(): return "".join(chr(random.choice([ru(),random.randrange(256),random.randrange(128),10,34,92])) for _ in range(random.randrange(5)))
def robj(d):
    k=random.randrange(7 if d else 4)
    if k==0: return None,'.none'
    if k==1: v=random.choice([ri(),10**random.randrange(30),-10**random.randrange(30)]); return v,f'.int ({v})'
    if k==2: v=rs(); return v,f'.str {S(v)}'
    if k==3: v=bytes(random.choice([random.randrange(256),39,34,92,9,10,13]) for _ in range(random.randrange(5))); return v,f'.bytes {B(v)}'
    l=[robj(d-1) for _ in range(random.randrange(4))]
    if k==4: return random.choice([list,tuple])(x for x,_ in l),'.seq ['+','.join(y for _,y in l)+']'
    ks=list({rs():0 for _ in l})
    v=dict(zip(ks,(x for x,_ in l))); t='['+','.join(f'({S(a)},{y})' for a,(_,y) in zip(ks,l))+']'
    return (v,f'.dict {t}') if k==5 else (Inst(v),f'.inst {t}')
rows=[]
for _ in range(900):
    v,t=robj(3); rows.append(f"(({t}:PyObj),{S(Enc(indent=4).encode(v))})")
table("jsn","PyObj × Str",rows,"(jsonEncode 4300 0 r.1).toOption == some r.2")
rows=[]
for _ in range(300):
    n=random.randrange(1,60); v=random.choice([1,-1])*(10**n+random.randrange(-2,2)); m=random.choice([0,n,n+1,n-1])
    rows.append(f"((({v}:Int),{m}),{'some '+S(str(v)) if m==0 or len(str(abs(v)))<=m else 'none'})")
table("dig","(Int × Nat) × Option Str",rows,"(intRepr r.1.2 r.1.1).toOption == r.2")
assert sys.get_int_max_str_digits()==4300
rows=[]
for _ in range(300):
    t="".join(random.choice("ab\r\n\r\n\x0b\u2028") for _ in range(random.randrange(8)))
    rows.append(f"({S(t)},{S(io.TextIOWrapper(io.BytesIO(t.encode()),encoding='utf8').read())})")
table("unl","Str × Str",rows,"universalNewlines r.1 == r.2")
# argparse, with the parser of __main__.py
import argparse, contextlib, io, unicodedata
def argv(a):
    p=argparse.ArgumentParser()
    p.add_argument('filename')
    p.add_argument('--passphrase')
    try:
        with contextlib.redirect_stdout(io.StringIO()), contextlib.redirect_stderr(io.StringIO()):
            n=p.parse_args(a)
    except SystemExit as e:
        return ".error .help" if e.code==0 else ".error .usage"
    return f".ok ({S(n.filename)},{'none' if n.passphrase is None else 'some '+S(n.passphrase)})"
words=["","a","-","--","---","-h","-hh","-hx","-h-","-h=","-hh=","-hhh","-hh=x","-h=x","-hxh","--help","--he","--h","--help=","--h=x","--passphrase",
    "--passphrase=","--passphrase=x","--passphrase=-x=--","--pass","--p","--p=y","--pa=","--passphrases","--passphrases=x","--q","--q=x","--=","--=x",
    "-5","-5.","-5.5","-.5","-.","-5\n","-5\n\n","-5.5\n","-5.5.5","-5x","-\u0665","-\u0665.\u0666","-x","-x y","--x y","--p y","--p= y","--h y","-h y","-= y","--= y",
    "-p","-p=x","-passphrase","=","x=y","- ","-- "," -h","-\n","-\n5"]
rows=[f"([{S(w)}],{argv([w])})" for w in words]+[f"([{S(v)},{S(w)}],{argv([v,w])})" for v in words for w in words]
common=["a","b","--","--passphrase","--p=y","-h","-x","-5","--passphrase=x","-hx"]
for _ in range(2500):
    a=[random.choice(common if random.random()<.8 else words) for _ in range(random.randrange(3,7))]
    rows.append(f"([{','.join(map(S,a))}],{argv(a)})")
out.append("def dg (c : Nat) : Bool := decide (0x660 ≤ c ∧ c ≤ 0x669)")
out.append("def same (a b : Except ArgsExit (Str × Option Str)) : Bool := match a, b with | .ok x, .ok y => x == y | .error x, .error y => x == y | _, _ => false")
table("argv","List Str × Except ArgsExit (Str × Option Str)",rows,"same (parseArgs dg r.1) r.2")
# UserDict: operations one after the other, copies, and the combinations (a subclass that counts what its constructor gets)
import collections, copy
class UD(collections.UserDict):
    def __init__(self,params): super().__init__(params); self.made=True
def D(d): return "["+",".join(f"({S(k)},.int {v})" for k,v in d.items())+"]"
def rd(): return {random.choice("abcd"):random.randrange(9) for _ in range(random.randrange(4))}
rows=[]
for _ in range(600):
    d0=rd(); d=UD(d0); ops=[]; outs=[]
    for _ in range(random.randrange(1,6)):
        k,v=random.choice("abcd"),random.randrange(9); o=rd()
        t,f=random.choice([
            (f".setItem {S(k)} (.int {v})",lambda: d.__setitem__(k,v)),(f".delItem {S(k)}",lambda: d.__delitem__(k)),
            (f".pop {S(k)} none",lambda: d.pop(k)),(f".pop {S(k)} (some (.int {v}))",lambda: d.pop(k,v)),(".popItem",lambda: d.popitem()),
            (".clear",lambda: d.clear()),(f".update {D(o)}",lambda: d.update(o)),(f".update {D(o)}",lambda: (d.__ior__(UD(o)),None)[1]),
            (f".setDefault {S(k)} (.int {v})",lambda: d.setdefault(k,v))])
        r=opt(f); ops.append(t)
        outs.append("none" if isinstance(r,KeyError) else "some .nothing" if r is None else f"some (.item {S(r[0])} (.int {r[1]}))" if isinstance(r,tuple) else f"some (.value (.int {r}))")
    assert list(d.copy().data.items())==list(copy.copy(d).data.items())==list(d.data.items()) and type(d.copy()) is UD
    o=rd(); assert isinstance(opt(UD.fromkeys,"ab"),TypeError)
    rows.append(f"(({D(d0)},[{','.join(ops)}],{D(o)}),([{','.join(outs)}],{D(d)},{D((d|o).data)},{D((o|d).data)}))")
out.append("def runAll : VDict → List DictOp → List (Option DictOut) × VDict | d, [] => ([], d) | d, op :: t => let r := runAll (op.run d).2 t; ((op.run d).1.toOption :: r.1, r.2)")
table("udict","(VDict × List DictOp × VDict) × (List (Option DictOut) × VDict × VDict × VDict)",rows,
    "let d := (runAll r.1.1 r.1.2.1).2; runAll r.1.1 r.1.2.1 == (r.2.1, r.2.2.1) && dupdate d r.1.2.2 == r.2.2.2.1 && dupdate r.1.2.2 d == r.2.2.2.2")
# struct format strings: size, unpacking, packing of one value
FE={"error":".structError","UnicodeEncodeError":".unicodeEncodeError","SystemError":".systemError"}
def ex(x): return f".error {FE[type(x).__name__]}"
def fv(v): return f".bytes {B(v)}" if isinstance(v,bytes) else f".str {S(v)}" if isinstance(v,str) else f".int ({int(v)})" if isinstance(v,int) else f".tuple [{','.join(map(fv,v))}]"
def rfmt():
    t=random.choice(["","","@","=","<",">","!"])
    for _ in range(random.choice([0,1,1,1,2,3,4])):
        t+=random.choice(["","",""," ","\n","\v"])+random.choice(["","","",str(random.randrange(4)),str(random.randrange(14)),"0"+str(random.randrange(30))])
        t+=random.choice("xcbB?hHiIlLqQnNsspPPP")
    t+=random.choice(["","","",""," ","\t"])
    if random.random()<.15: i=random.randrange(len(t)+1); t=t[:i]+random.choice(["3"," ","Z","<","\0","\x80","é","99999999999999999999","9223372036854775807","4611686018427387904h"," ","e","f","d","\x1c","\x85","(","-1","O"])+t[i:]
    return t
rows=[]; rows2=[]; rows3=[]
for _ in range(3000):
    f=rfmt(); n=opt(struct.calcsize,f)
    rows.append(f"({S(f)},{ex(n) if isinstance(n,Exception) else f'.ok {n}'})")
    if not isinstance(n,Exception) and n<48 and not set("efd")&set(f):
        b=bytes(random.choice([0,0,1,2,127,128,255,random.randrange(256)]) for _ in range(n+random.choice([0]*9+[1])))
        r=opt(struct.unpack,f,b)
        rows2.append(f"(({S(f)},{B(b)}),{ex(r) if isinstance(r,Exception) else '.ok ['+','.join(map(fv,r))+']'})")
    if not set("efd")&set(f) and (isinstance(n,Exception) or n<300):
        for _ in range(2):
            v=random.choice([ri(),random.choice([-1,1])*2**random.choice([7,8,15,16,31,32,63,64])+random.randrange(-1,2),random.randrange(-3,3),rb(random.randrange(6)),rb(random.randrange(6)),rb(random.randrange(300)),"ab","",(),(1,2)])
            r=opt(struct.pack,f,v)
            rows3.append(f"(({S(f)},{fv(v)}),{ex(r) if isinstance(r,Exception) else '.ok '+B(r)})")
out.append("def nofl : Floats := ⟨fun b => b.any (· % 2 == 1), fun _ => .int 0, fun _ _ => .error .structError, fun _ => false⟩")
out.append("def sameE {α : Type} [BEq α] (a b : Except Exn α) : Bool := match a, b with | .ok x, .ok y => x == y | .error x, .error y => decide (x = y) | _, _ => false")
table("fmt","Str × Except Exn Nat",rows,"sameE ((parseFormat r.1).map (·.size)) r.2")
table("fmtu","(Str × Bytes) × Except Exn (List SVal)",rows2,"sameE (structUnpack nofl r.1.1 r.1.2) r.2",50)
table("fmtp","(Str × Val) × Except Exn Bytes",rows3,"sameE (structPackText nofl r.1.1 r.1.2) r.2",50)
open('Diff.lean','w').write("\n".join(out)+"\n"); print(N)
