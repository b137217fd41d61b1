import hashlib,re,base64,json,struct
# pi hex digits
def pi_words(n):
    bits=32*n+64
    one=1<<bits
    def arctan(x):
        t=one//x; s=t; k=3; x2=x*x; sg=-1
        while t:
            t//=x2; s+=sg*(t//k); sg=-sg; k+=2
        return s
    pi=4*(4*arctan(5)-arctan(239))
    f=pi-(3<<bits)
    f>>=64
    return [(f>>(32*(n-1-i)))&0xffffffff for i in range(n)]
W=pi_words(18+1024)
assert W[0]==0x243f6a88
P0=W[:18]; S0=W[18:]
def enc(L,R,P,S):
    for i in range(0,16,2):
        L^=P[i]
        R^=((((S[L>>24]+S[256+((L>>16)&255)])^S[512+((L>>8)&255)])+S[768+(L&255)])&0xffffffff)
        R^=P[i+1]
        L^=((((S[R>>24]+S[256+((R>>16)&255)])^S[512+((R>>8)&255)])+S[768+(R&255)])&0xffffffff)
    L^=P[16];R^=P[17]
    return R,L
def words(b): return struct.unpack('>%dI'%(len(b)//4),b)
def expand0(P,S,key):
    k=words(key)
    n=len(k)
    for i in range(18): P[i]^=k[i%n]
    L=R=0
    for i in range(0,18,2):
        L,R=enc(L,R,P,S);P[i]=L;P[i+1]=R
    for i in range(0,1024,2):
        L,R=enc(L,R,P,S);S[i]=L;S[i+1]=R
def expand(P,S,data,key):
    k=words(key);d=words(data);n=len(k)
    for i in range(18): P[i]^=k[i%n]
    L=R=0;j=0
    for i in range(0,18,2):
        L^=d[j%len(d)];R^=d[(j+1)%len(d)];j+=2
        L,R=enc(L,R,P,S);P[i]=L;P[i+1]=R
    for i in range(0,1024,2):
        L^=d[j%len(d)];R^=d[(j+1)%len(d)];j+=2
        L,R=enc(L,R,P,S);S[i]=L;S[i+1]=R
def bhash(sp,ss):
    P=P0[:];S=S0[:]
    expand(P,S,ss,sp)
    for i in range(64):
        expand0(P,S,ss);expand0(P,S,sp)
    c=list(words(b"OxychromaticBlowfishSwatDynamite"))
    for i in range(64):
        for j in range(0,8,2): c[j],c[j+1]=enc(c[j],c[j+1],P,S)
    return b''.join(struct.pack('<I',x) for x in c)
def kdf(pw,salt,rounds,keylen=48):
    sp=hashlib.sha512(pw).digest()
    stride=(keylen+31)//32; amt=(keylen+stride-1)//stride
    key=bytearray(keylen); left=keylen
    count=1
    while left>0:
        ss=hashlib.sha512(salt+struct.pack('>I',count)).digest()
        tmp=bhash(sp,ss); out=bytearray(tmp)
        for i in range(1,rounds):
            ss=hashlib.sha512(tmp).digest()
            tmp=bhash(sp,ss)
            out=bytearray(a^b for a,b in zip(out,tmp))
        a=min(amt,left)
        for i in range(a):
            d=i*stride+(count-1)
            if d>=keylen: a=i;break
            key[d]=out[i]
        left-=a
        count+=1
    return bytes(key)
t=open('/repo/tests/privkey_encrypted.rs').read()
res=[]
for m in re.finditer(r'r#"(-----BEGIN.*?)"#.*?format!\("(\w+)"\)',t,re.S):
    b=base64.b64decode(''.join(m.group(1).split('\n')[1:-1]))
    o=15
    def rb():
        global o
        n=struct.unpack('>I',b[o:o+4])[0];r=b[o+4:o+4+n];o+=4+n;return r
    rb();rb();k=rb()
    n=struct.unpack('>I',k[:4])[0];salt=k[4:4+n];rounds=struct.unpack('>I',k[4+n:8+n])[0]
    print(m.group(2),salt.hex(),rounds,flush=True)
    d=kdf(m.group(2).encode(),salt,rounds)
    res.append((m.group(2),salt.hex(),rounds,d.hex()))
    json.dump(res,open('/verif/tools/bcrypt.json','w'))
