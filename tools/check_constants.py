import re
D='/repo/zokrates_stdlib/stdlib/hashes/'
p=21888242871839275222246405745257275088548364400416034343698204186575808495617
def rol(x,n): n%=64; return ((x<<n)|(x>>(64-n)))&(2**64-1)
def f1600(A):
    R=1
    for _ in range(24):
        C=[A[x][0]^A[x][1]^A[x][2]^A[x][3]^A[x][4] for x in range(5)]
        Dd=[C[(x+4)%5]^rol(C[(x+1)%5],1) for x in range(5)]
        A=[[A[x][y]^Dd[x] for y in range(5)] for x in range(5)]
        x,y=1,0; cur=A[x][y]
        for t in range(24):
            x,y=y,(2*x+3*y)%5
            cur,A[x][y]=A[x][y],rol(cur,(t+1)*(t+2)//2)
        for y in range(5):
            T=[A[x][y] for x in range(5)]
            for x in range(5): A[x][y]=T[x]^((~T[(x+1)%5])&T[(x+2)%5])
        for j in range(7):
            R=((R<<1)^((R>>7)*0x71))%256
            if R&2: A[0][0]^=1<<((1<<j)-1)
    return A
def keccak256(m):
    rate=136; m=bytearray(m); m.append(1); 
    while len(m)%rate: m.append(0)
    m[-1]|=0x80
    A=[[0]*5 for _ in range(5)]
    for i in range(0,len(m),rate):
        for k in range(rate//8):
            A[k%5][k//5]^=int.from_bytes(m[i+8*k:i+8*k+8],'little')
        A=f1600(A)
    return b''.join(A[k%5][k//5].to_bytes(8,'little') for k in range(4))
def nums(s): return [int(x) for x in re.findall(r'\b\d{1,80}\b',s)]
s=open(D+'mimc7/mimc7.zok').read(); s=s[s.index('=')+1:s.index('];')]
C7=nums(s); print(len(C7))
def gen(seed,n):
    r=[0]; c=keccak256(seed)
    for i in range(1,n):
        c=keccak256(c); r.append(int.from_bytes(c,'big')%p)
    return r
print(gen(b'mimc',91)==C7)
s=open(D+'mimcSponge/mimcFeistel.zok').read(); s=s[s.index('IV = [')+6:s.index('];')]
CF=nums(s); print(len(CF)); g=gen(b'mimcsponge',220); print([i for i in range(220) if g[i]!=CF[i]])
s=open(D+'poseidon/constants.zok').read()
i=s.index('POSEIDON_C ='); j=s.index('POSEIDON_M =')
def parse(t):
    import ast
    t=t[t.index('=')+1:]
    t=re.sub(r'//.*','',t)
    t=re.sub(r'\.\.\.\[\[0; 7\]; (\d)\]',lambda m:','.join(['[0,0,0,0,0,0,0]']*int(m.group(1))),t)
    t=re.sub(r'\.\.\.\[0; (\d+)\]',lambda m:','.join(['0']*int(m.group(1))),t)
    t=re.sub(r'\[0; (\d+)\]',lambda m:'['+','.join(['0']*int(m.group(1)))+']',t)
    t=t[:t.index(';')]
    return ast.literal_eval(t.strip())
PC=parse(s[i:j]); PM=parse(s[j:])
print(len(PC),[len(x) for x in PC],len(PM),[len(x) for x in PM],[len(x[0]) for x in PM])
def grain(t,rf,rp,n):
    bits=[]
    def app(v,w):
        for k in range(w-1,-1,-1): bits.append((v>>k)&1)
    app(1,2);app(0,4);app(n,12);app(t,12);app(rf,10);app(rp,10);app(2**30-1,30)
    st=bits
    def step():
        b=st[62]^st[51]^st[38]^st[23]^st[13]^st[0]
        st.pop(0); st.append(b); return b
    for _ in range(160): step()
    def nxt():
        while True:
            b=step()
            if b: return step()
            step()
    def num():
        v=0
        for _ in range(n): v=v*2+nxt()
        return v
    cs=[]
    while len(cs)<t*(rf+rp):
        v=num()
        if v<p: cs.append(v)
    while True:
        xy=[num()%p for _ in range(2*t)]
        if len(set(xy))==2*t: break
    M=[[pow(xy[i]+xy[t+j],-1,p) for j in range(t)] for i in range(t)]
    return cs,M
RP=[56,57,56,60,60,63]
for k in range(6):
    t=k+2
    cs,M=grain(t,8,RP[k],254)
    print(t,cs==PC[k][:len(cs)],set(PC[k][len(cs):]),M==[r[:t] for r in PM[k][:t]], M==[[PM[k][j][i] for j in range(t)] for i in range(t)])
