"""Prints lean/Verif/Spec/Starts.lean."""
import os, re
A="123456789ABCDEFGHJKLMNPQRSTUVWXYZabcdefghijkmnopqrstuvwxyz"
src=open(os.path.join(os.path.dirname(os.path.abspath(__file__)), '../lean/Verif/Model/Coins.lean')).read()
def lead(pre,m):
    lo=pre<<(8*m); hi=((pre+1)<<(8*m))-1
    def fc(n):
        d=[]
        while n: n,r=divmod(n,58); d.append(r)
        return len(d),A[d[-1]]
    res=set(); 
    l1,c1=fc(lo); l2,c2=fc(hi)
    if l1==l2: chars=A[A.index(c1):A.index(c2)+1]
    else: chars=A[A.index(c1):]+A[1:A.index(c2)+1]
    return chars,l1,l2
rows=[]
for m in re.finditer(r'def (\w+) : Coin := ⟨"(\w+)", \[(.*?)\], ',src):
    for n,w,a in re.findall(r'\("(\w+)", ⟨(0x[0-9a-f]+), (0x[0-9a-f]+)⟩\)',m.group(3)):
        w=int(w,16);a=int(a,16)
        A1=lead(a,24) if a else ('1',0,0)
        W=lead(w,36); C=lead(w,37)
        assert A1[1]==A1[2] and W[1]==W[2] and C[1]==C[2]
        rows.append(f'  ⟨"{m.group(2)}", "{n}", "{A1[0]}", {A1[1]}, "{W[0]}", {W[1]}, "{C[0]}", {C[1]}⟩')
print(''' /-! # Well-known first characters

For every network of every cryptocurrency: the characters an address, an uncompressed WIF and a compressed WIF may start with, and
their lengths (0: the address has no fixed length, which is the case of the prefix byte 0 alone). These are the characters by which
people recognise such texts, as in "Litecoin addresses start with L, Dogecoin addresses with D, Dash addresses with X". -/
namespace Bip38.Spec

structure Starts where
  coin : String
  network : String
  address : String
  addressLength : Nat
  wif : String
  wifLength : Nat
  compressed : String
  compressedLength : Nat
  deriving DecidableEq

def starts : List Starts := ['''.lstrip())
print(",\n".join(rows)+"]\n\nend Bip38.Spec")
