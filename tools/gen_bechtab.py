# Generates lean/Verif/Encoding/BechTable.lean: the residues x^a * e (1 <= a <= 87, 1 <= e <= 31)
# and a search tree over them. The file is only data; everything used about it is checked by Lean.
G=[0x3b6a57b2,0x26508e6d,0x1ea119fa,0x3d4233dd,0x2a1462b3]
def L(c):
    b=c>>25; r=(c&0x1ffffff)<<5
    for i in range(5):
        if b>>i&1: r^=G[i]
    return r
cols=[]; cur=list(range(1,32))
for a in range(1,88):
    cur=[L(x) for x in cur]; cols.append(cur)
ent=sorted((v>>5,(a+1)*32+(e+1)) for a,c in enumerate(cols) for e,v in enumerate(c))
assert len({k for k,_ in ent})==len(ent)
D={k for k,_ in ent}
for c in range(87):
    for b in range(c):
        for z in cols[b]:
            assert (cols[c][0]^z)>>5 not in D
def tree(lo,hi):
    if lo>=hi: return ".l"
    m=(lo+hi)//2
    k,v=ent[m]
    return f"(.n {tree(lo,m)} {k} {v} {tree(m+1,hi)})"
defs=[]
def emit(lo,hi,name,depth):
    # split the tree into several definitions to keep terms small
    if depth==0:
        defs.append(f"def {name} : KTree := {tree(lo,hi)}")
        return
    m=(lo+hi)//2
    k,v=ent[m]
    emit(lo,m,name+"0",depth-1); emit(m+1,hi,name+"1",depth-1)
    defs.append(f"def {name} : KTree := .n {name}0 {k} {v} {name}1")
emit(0,len(ent),"bechTree",5)
def wrap(s):
    out=[];line=""
    for w in s.split(" "):
        if len(line)+len(w)+1>98: out.append(line); line="  "+w
        else: line=(line+" "+w) if line else w
    out.append(line)
    return "\n".join(out)
with open("/verif/lean/Verif/Encoding/BechTable.lean","w") as f:
    f.write("""/-!
# Residue table of the Bech32 code (generated by tools/gen_bechtab.py)

Data only: `BechErrors.lean` checks every entry.
-/
namespace Torsion

inductive KTree where
  | l
  | n (a : KTree) (key val : Nat) (b : KTree)

""")
    for i,c in enumerate(cols):
        f.write(wrap(f"def bechCol{i+1} : List Nat := [{', '.join(map(str,c))}]")+"\n\n")
    f.write(wrap("def bechCols : List (List Nat) := ["+", ".join(f"bechCol{i+1}" for i in range(87))+"]")+"\n\n")
    for d in defs: f.write(wrap(d)+"\n\n")
    f.write("end Torsion\n")
