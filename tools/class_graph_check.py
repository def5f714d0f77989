"""Compares the class graph in lean/Verif/Model with CPython's own class machinery.

Reads the class statements in /repo as text, builds empty classes with the same names, bases and abstract methods,
and writes Stub.lean, which compares method resolution order, subclasses, abstractness and method definers.
(`PascalStyleDict` prints false: it has no conversion_functions, the model never asks.)
"""
import ast,abc,collections
order=['pascal_style_byte_stream.py','key_params/common.py','key_params/dss.py','key_params/ecdsa.py','key_params/ed25519.py','key_params/rsa.py','key_params/sk.py','key_params/cert.py']
env={'object':object,'abc':abc,'collections':collections}
cls={}
for f in order:
    t=ast.parse(open('/repo/openssh_key/'+f).read())
    for n in t.body:
        if not isinstance(n,ast.ClassDef): continue
        bs=[]; ok=True
        for b in n.bases:
            s=ast.unparse(b)
            if s in cls: bs.append(cls[s])
            elif s=='abc.ABC': bs.append(abc.ABC)
            elif s in('utils.BaseDict','collections.UserDict') or 'UserDict' in s: bs.append(collections.UserDict)
            else: ok=False
        if not ok or not bs: print('skip',f,n.name,[ast.unparse(b) for b in n.bases]); continue
        ns={}
        for m in n.body:
            if isinstance(m,ast.FunctionDef):
                fn=lambda *a:None
                if any('abstractmethod' in ast.unparse(d) for d in m.decorator_list): fn=abc.abstractmethod(fn)
                ns[m.name]=fn
        c=abc.ABCMeta(n.name,tuple(bs),ns); c.body=ns; cls[n.name]=c
M={'PascalStyleDict':'pascalStyleDict','PublicKeyParams':'publicKeyParams','PrivateKeyParams':'privateKeyParams'}
for a,b in(('RSA','rsa'),('DSS','dss'),('Ed25519','ed25519'),('ECDSA','ecdsa'),('ECDSA_NISTP256_','ec256'),('ECDSA_NISTP384_','ec384'),('ECDSA_NISTP521_','ec521'),('SecurityKey','sk'),('SecurityKey_ECDSA_NISTP256_','skEc256'),('SecurityKey_Ed25519_','skEd25519')):
    M[a+'PublicKeyParams']=b+'Pub'; M[a+'PrivateKeyParams']=b+'Priv'
for a,b in(('RSA','certRsa'),('Ed25519','certEd25519'),('DSS','certDss'),('ECDSA_NISTP256','certEc256'),('ECDSA_NISTP384','certEc384'),('ECDSA_NISTP521','certEc521'),('SecurityKey_Ed25519','certSkEd25519'),('SecurityKey_ECDSA_NISTP256','certSkEc256')): M[f'Cert_{a}_PublicKeyParams']=b
M['CertPublicKeyParams']='certPub'
for n in cls:
    if n not in M: print('unmapped',n)
L=[]
def nm(c):
    if c is object:return '.object'
    if c is abc.ABC:return '.abc'
    if c is collections.UserDict:return '.userDict'
    return '.'+M[c.__name__] if c.__name__ in M else None
def definer(c,m):
    for k in c.__mro__:
        if m in getattr(k,'__dict__',{}) and k.__name__ in M: return nm(k)
    return None
for n,l in M.items():
    if n not in cls: print('missing',n); continue
    c=cls[n]
    mro=[x for x in map(nm,c.__mro__) if x]
    subs=[nm(x) for x in type.__subclasses__(c)]
    ck=definer(c,'check_params_are_valid'); cv=definer(c,'conversion_functions')
    L.append(f"#eval decide (Cls.mro .{l} = [{','.join(mro)}]) && decide (Cls.subclasses .{l} = [{','.join(subs)}]) && (Cls.isAbstract .{l} == {'true' if c.__abstractmethods__ else 'false'}) && decide (firstChecker .{l} (Cls.mro .{l}) = {'some '+ck if ck else 'none'}) && decide (Cls.conversionDef (Cls.conversionOf .{l}) = {'some '+cv if cv else 'none'})")
open('Stub.lean','w').write("import Verif.Model.Convert\nopen OSK\n"+"\n".join(L)+"\n")
