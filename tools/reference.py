#!/usr/bin/env python3
"""Reads /repo/README.md: the entries of the reference become lean/Verif/Spec/Reference.lean (what the manual promises),
the example sessions become lean/Verif/Validation/Readme.lean (tests of the model, checked by the kernel)."""
import re
L=open('/repo/README.md').read().split('\n')
def lit(s): return 'b!"'+s.replace('\\','\\\\').replace('"','\\"')+'"'
# --- sessions
blocks=[];cur=None
for n,l in enumerate(L,1):
    if l.startswith('```'):
        if cur is None: cur=[n]
        else: blocks.append(cur); cur=None
    elif cur is not None: cur.append(l)
t='''/-
The example sessions of README.md, each on a fresh server with the default settings.

Generated by tools/reference.py.  These are tests of the model, checked by the kernel; they are not part of the proofs.
-/
import Verif.Validation.Context
import Verif.Model.Main

namespace Knuckle.Validation

/-- A server started without options (`src/knuckleball.cpp:49-52`), quiet. -/
def plain : Ctx := Ctx.init 3 defaultTolerance false true

'''
ns=0
for b in blocks:
    n,ls=b[0],[x for x in b[1:] if x.strip() and not x.startswith('$')]
    if not any(x.startswith('>') for x in ls): continue
    items=[];q=None
    for x in ls:
        if x.startswith('>'):
            items.append(f'({lit(q)}, some {lit(x[1:].strip())})'); q=None
        else:
            if q is not None: items.append(f'({lit(q)}, none)')
            q=x.strip()
    if q is not None: items.append(f'({lit(q)}, none)')
    ns+=1
    if n==1898: continue
    if n==1905: continue
    if n==1742: items=[x.replace('1.82))','1.820))') for x in items]; t+='/- The manual prints `1.82` here; with three decimals it is `1.820`. -/\n'
    t+=f'/-- `README.md:{n}` -/\nexample : replay plain [\n  '+',\n  '.join(items)+'] = true := by decide +kernel\n\n'
t+='''/-- `README.md:1898`: on a connection, with the password "password". -/
example : (match @execute insertionStdSort b!"password" plain (some (Session.init b!"password")) b!"Connection authenticateWithPassword: \\"password\\";" with
  | .done (_, some s, o) => s.authed && o == b!"null" | _ => false) = true := by decide +kernel

/-- `README.md:1905`: the context answers `null`, and the connection is closed. -/
example : (match @execute insertionStdSort [] plain (some (Session.init [])) b!"Connection close;" with
  | .done (_, some s, o) => !s.connected && o == b!"null" | _ => false) = true := by decide +kernel

'''
t+='end Knuckle.Validation\n'
open('/verif/lean/Verif/Validation/Readme.lean','w').write(t)
# --- reference
sec=None; ents=[]
for n,l in enumerate(L,1):
    m=re.match(r'### (\w+)',l)
    if m: sec=m.group(1)
    m=re.match(r'\* \*\*([a-z][^*]*)\*\*$',l)
    if m and n>115:
        sig=m.group(1)
        ret=re.match(r'\s*- Returns:\s*(\w+)',L[n]).group(1).lower()
        kinds=re.findall(r'\((\w+)\)',sig)
        name=re.sub(r'\s*\(\w+\)\s*','',sig)
        ents.append((n,sec,name,kinds,ret))

part={}
t='''/-
The reference manual of README.md, and what its words mean.

The table `manual` is generated by tools/reference.py from the sections "Reference" of README.md.
-/
import Verif.Spec.Errors

namespace Knuckle.Spec

/-- The words the manual uses for arguments and replies. -/
inductive DocKind
  | null | boolean | character | integer | float | string | object | vector | set | dictionary | variable | namespace

/-- An entry of the manual: the section, whether it is under "Constructors" or under "Methods", the message, its arguments
and what it returns. -/
structure DocEntry where
  part : Str
  constructor : Bool
  name : Str
  args : List DocKind
  returns : DocKind

/-- The entries of the manual; the numbers are lines of README.md. -/
def manual : List DocEntry := [
'''
rows=[]
ctor=None
for k,(n,sec,name,kinds,ret) in enumerate(ents):
    c='true' if name.startswith('create') else 'false'
    rows.append(f'  /- {n} -/ ⟨{lit(sec)}, {c}, {lit(name)}, [{", ".join("."+x for x in kinds)}], .{ret}⟩')
t+=',\n'.join(rows)+']\n'
t+='''
/-- The section of the manual about objects with this value. -/
def partOf : Inst → Str
  | .boolean _ => b!"Boolean"
  | .character _ => b!"Character"
  | .integer _ => b!"Integer"
  | .float _ => b!"Float"
  | .string _ => b!"String"
  | .vector _ _ => b!"Vector"
  | .set _ _ => b!"Set"
  | .dictionary _ _ _ => b!"Dictionary"

/-- `DocFor c a part constructor`: what the receiver `a` understands is to be found in this section of the manual, for a
type under "Constructors", for a variable under "Methods". -/
inductive DocFor (c : Ctx) : Str → Str → Bool → Prop
  | object {t} : ObjectType t → DocFor c t t true
  | vector {a} : VectorType a → DocFor c a b!"Vector" true
  | set {a} : SetType a → DocFor c a b!"Set" true
  | dictionary {a} : DictionaryType a → DocFor c a b!"Dictionary" true
  | variable {n i} : Holds c n i → DocFor c n (partOf i) false
  | context : DocFor c b!"Context" b!"Context" false
  | connection : DocFor c b!"Connection" b!"Connection" false

/-- `e` is the entry of the manual for the message `name` to `a`. -/
def Documented (c : Ctx) (a name : Str) (e : DocEntry) : Prop :=
  e ∈ manual ∧ DocFor c a e.part e.constructor ∧ e.name = name

/-- The types the word "object" stands for in the arguments of a message to the receiver `a`: for a vector or set its
element type, for a dictionary its key type, but its value type for the first argument of `associateValue:withKey:`. -/
inductive ObjectArg (c : Ctx) : Str → Str → Nat → Str → Prop
  | vector {n t l name k} : Holds c n (.vector t l) → ObjectArg c n name k t
  | set {n t l name k} : Holds c n (.set t l) → ObjectArg c n name k t
  | key {n t u l name k} : Holds c n (.dictionary t u l) → (name, k) ≠ (b!"associateValue:withKey:", 0) → ObjectArg c n name k t
  | value {n t u l} : Holds c n (.dictionary t u l) → ObjectArg c n b!"associateValue:withKey:" 0 u

/-- The text `a` is an argument of the documented kind; where `object` is documented, a literal of a type in `obj`. -/
def OfKind (obj : Str → Prop) : DocKind → Str → Prop
  | .boolean, a => BooleanValue a
  | .character, a => CharacterValue a
  | .integer, a => IntegerValue a
  | .float, a => FloatValue a
  | .string, a => StringValue a
  | .object, a => ∃ t, obj t ∧ LiteralOf t a
  | .variable, a => Variable a
  | .namespace, a => Identifier a
  | _, _ => False

/-- The text shows a value of type `t`. -/
def Shows (t r : Str) : Prop :=
  (t = b!"Boolean" ∧ BooleanValue r) ∨ (t = b!"Character" ∧ CharacterValue r) ∨
  (t = b!"Integer" ∧ ∃ n, IntLiteral r n ∧ IsInt32 n) ∨
  (t = b!"Float" ∧ (FloatValue r ∨ r ∈ [b!"inf", b!"-inf", b!"-nan"])) ∨
  (t = b!"String" ∧ ∃ v, r = quoted v)

/-- The text is a reply of the documented kind: a vector shows values of one type or names, a dictionary shows pairs. -/
def ReplyOf : DocKind → Str → Prop
  | .null, r => r = b!"null"
  | .boolean, r => Shows b!"Boolean" r
  | .character, r => Shows b!"Character" r
  | .integer, r => IntegerValue r
  | .float, r => Shows b!"Float" r
  | .string, r => Shows b!"String" r
  | .object, r => ∃ t, Shows t r
  | .vector, r => ∃ xs, r = listText c!"[" c!"]" xs ∧
      ((∃ t, ∀ x ∈ xs, Shows t x) ∨ (∀ x ∈ xs, IntegerValue x) ∨ ∀ x ∈ xs, Variable x)
  | .set, r => ∃ xs t, r = listText c!"{" c!"}" xs ∧ ∀ x ∈ xs, Shows t x
  | .dictionary, r => ∃ xs t u, r = listText c!"(" c!")" xs ∧
      ∀ x ∈ xs, ∃ y z, x = listText c!"(" c!")" [y, z] ∧ Shows t y ∧ Shows u z
  | .variable, r => Variable r
  | .namespace, r => Identifier r

end Knuckle.Spec
'''
open('/verif/lean/Verif/Spec/Reference.lean','w').write(t)
print(ns,'sessions',len(ents),'entries')
