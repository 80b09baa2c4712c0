#!/usr/bin/env python3
"""Translates the expectations of /repo/tests into Lean (lean/Verif/Validation), where the kernel checks that the model
meets them."""
import re
OUT='/verif/lean/Verif/Validation/'
STR=r'"(?:[^"\\]|\\.)*"'
def lit(s):
    body=eval(s).encode('latin1')
    if all(32<=c<127 for c in body):
        return 'b!"'+body.decode().replace('\\','\\\\').replace('"','\\"')+'"' if body else '[]'
    return '['+', '.join(str(c) for c in body)+']'
def head(title,imports,extra=''):
    return f"/-\n{title}\n\nGenerated by tools/validation.py.  These are tests of the model, checked by the kernel; they are not part of the proofs.\n-/\n"+''.join(f'import {i}\n' for i in imports)+'\nnamespace Knuckle.Validation\n\n'+extra
# --- context
exc={'EXC_INVALID_STATEMENT':'invalidStatement','EXC_INVALID_ARGUMENT':'invalidArgument','EXC_INVALID_MESSAGE':'invalidMessage','EXC_VARIABLE_NAME_ALREADY_USED':'nameAlreadyUsed','EXC_UNEXISTENT_VARIABLE':'unexistentVariable','EXC_WRONG_NUMBER_OF_ARGUMENTS':'wrongNumberOfArguments','EXC_INVALID_COMPARISON':'invalidComparison'}
src=open('/repo/tests/context_test.cpp').read()
blocks=[]; n=0; skipped=0
off=0
for mt in re.finditer(r'TEST_F\(ContextTest, (\w+)\) \{\n(.*?)\n\}\n',src,re.S):
    line=src[:mt.start()].count('\n')+1
    items=[]
    for l in mt.group(2).split('\n'):
        m=re.match(r'\s*EXPECT_EQ\(context->execute\(('+STR+r')\), (.*)\);\s*$',l)
        m2=re.match(r'\s*context->execute\(('+STR+r')\);\s*$',l)
        if m:
            e=m.group(2)
            ee=f'some Exc.{exc[e]}.text' if e in exc else f'some {lit(e)}'
            items.append(f'({lit(m.group(1))}, {ee})'); n+=1
        elif m2: items.append(f'({lit(m2.group(1))}, none)')
        elif l.strip(): skipped+=1; pass
    blocks.append((mt.group(1),line,items))
pre='''/-- All requests of the test are defined and the expected replies are given. -/
def replay (c : Ctx) : List (Str × Option Str) → Bool
  | [] => true
  | (i, e) :: r => match @execute insertionStdSort [] c none i with
    | .ub => false
    | .done (c', _, o) => (match e with | none => true | some e => e == o) && replay c' r

/-- `Context::get_instance("", 3, 0.001, true)`, `tests/context_test.cpp:36`. -/
def start : Ctx := Ctx.init 3 (atof b!"0.001").toF32 false true

'''
t=head('The expectations of tests/context_test.cpp.',['Verif.Model.Server','Verif.Proofs.Sort'],pre)
for name,line,items in blocks:
    t+=f'/-- `tests/context_test.cpp:{line}` -/\nexample : replay start [\n  '+',\n  '.join(items)+'] = true := by decide +kernel\n\n'
t+='end Knuckle.Validation\n'
open(OUT+'Context.lean','w').write(t)
# --- grammar
g=open('/repo/tests/grammar_test.cpp').read()
def camel(x): 
    p=x.split('_'); return 'is'+''.join(w.capitalize() for w in p)
t=head('The expectations of tests/grammar_test.cpp.',['Verif.Model.Grammar'])
ng=0
have=open('/verif/lean/Verif/Model/Grammar.lean').read()
for mt in re.finditer(r'TEST\(\w+, (\w+)\) \{\n(.*?)\n\}\n',g,re.S):
    line=g[:mt.start()].count('\n')+1
    items=[]
    for mm in re.finditer(r'EXPECT_(TRUE|FALSE)\(Grammar::is_(\w+)\(('+STR+r')\)\)',mt.group(2)):
        f=camel(mm.group(2))
        if f'def {f} ' not in have: continue
        items.append(f'{f} {lit(mm.group(3))} == {mm.group(1).lower()}'); ng+=1
    if items: t+=f'/-- `tests/grammar_test.cpp:{line}` -/\nexample : ('+' &&\n  '.join(items)+') = true := by decide +kernel\n\n'
t+='end Knuckle.Validation\n'
open(OUT+'Grammar.lean','w').write(t)
# --- parser
q=open('/repo/tests/parser_test.cpp').read()
t=head('The expectations of tests/parser_test.cpp.',['Verif.Model.Parser'],'''/-- The parser throws. -/
def refuses (s : Str) : Bool := match parse s with
  | .err _ => true
  | _ => false

''')
np=0
for mt in re.finditer(r'TEST\(\w+, (\w+)\) \{\n(.*?)\n\}\n',q,re.S):
    line=q[:mt.start()].count('\n')+1; b=mt.group(2)
    m=re.search(r'Parser parser\(('+STR+r')\);',b)
    if m:
        a=re.search(r'parser\.actor\(\), ('+STR+')',b).group(1); mn=re.search(r'message_name\(\), ('+STR+')',b).group(1)
        ar=re.search(r'arguments\(\), std::vector<std::string>\(\{(.*)\}\)\)',b).group(1)
        ars=re.findall(STR,ar)
        t+=f'/-- `tests/parser_test.cpp:{line}` -/\nexample : parse {lit(m.group(1))} =\n    .ok ⟨{lit(a)}, {lit(mn)}, [{", ".join(map(lit,ars))}]⟩ := by decide +kernel\n\n'; np+=3
    else:
        its=re.findall(r'EXPECT_ANY_THROW\(Parser\(('+STR+r')\)\)',b); np+=len(its)
        t+=f'/-- `tests/parser_test.cpp:{line}` -/\nexample : ('+' &&\n  '.join('refuses '+lit(x) for x in its)+') = true := by decide +kernel\n\n'
t+='end Knuckle.Validation\n'
open(OUT+'Parser.lean','w').write(t)
# --- str_utils
q=open('/repo/tests/str_utils_test.cpp').read()
t=head('The expectations of tests/str_utils_test.cpp.',['Verif.Model.StrUtils'])
ns=0
fn={'ltrim':'ltrim','rtrim':'rtrim','trim':'trim','escape':'escape','unescape':'unescape','is_space':'isSpace','is_alpha':'isAlpha','is_numeric':'isNumeric','is_alphanumeric':'isAlphanumeric','starts_with':'startsWith','ends_with':'endsWith','remove_spaces':'removeSpaces'}
CH=r"'(?:[^'\\]|\\.)'"
def arg(x): return lit(x) if x[0]=='"' else str(ord(eval(x)))
for mt in re.finditer(r'TEST\(\w+, (\w+)\) \{\n(.*?)\n\}\n',q,re.S):
    line=q[:mt.start()].count('\n')+1; items=[]
    for mm in re.finditer(r'EXPECT_(EQ|TRUE|FALSE)\(str_utils::(\w+)\((.*)\);',mt.group(2)):
        f=fn[mm.group(2)]; args=re.findall(STR+'|'+CH,mm.group(3))
        if mm.group(1)=='EQ':
            fa,e=args[:-1],lit(args[-1])
        else: fa,e=args,mm.group(1).lower()
        if f in('escape','unescape'): fa=fa[::-1]
        items.append(f'{f} {" ".join(map(arg,fa))} == {e}'); ns+=1
    t+=f'/-- `tests/str_utils_test.cpp:{line}` -/\nexample : ('+' &&\n  '.join(items)+') = true := by decide +kernel\n\n'
t+='end Knuckle.Validation\n'
open(OUT+'StrUtils.lean','w').write(t)
# --- instance
q=open('/repo/tests/instance_test.cpp').read()
t=head('The expectations of tests/instance_test.cpp.',['Verif.Model.Context'],"""/-- `Context::get_instance("", 3, 1e-9, true)`, `tests/instance_test.cpp:35`: only the precision matters here. -/
def prec : Int := 3

/-- `instance.type()`, `instance.value()` (`v`, if the test looks at it), `instance.representation()`. -/
def looksLike (o : Obj) (type : Str) (v : Option Obj) (repr : Str) : Bool :=
  o.type == type && (match v with | some v => o == v | none => true) && o.repr prec == repr

/-- The constructor with a representation. -/
def fromRepr (type s : Str) (v : Option Obj) (repr : Str) : Bool := match getSharedInstance type s with
  | .ok o => looksLike o type v repr
  | _ => false

/-- The constructor with a message. -/
def fromMessage (r : Res (Str × Inst)) (type name : Str) (v : Option Obj) (repr : Str) : Bool := match r with
  | .ok (n, .boolean x) => n == name && looksLike (.boolean x) type v repr
  | .ok (n, .character x) => n == name && looksLike (.character x) type v repr
  | .ok (n, .integer x) => n == name && looksLike (.integer x) type v repr
  | .ok (n, .float x) => n == name && looksLike (.float x) type v repr
  | .ok (n, .string x) => n == name && looksLike (.string x) type v repr
  | .ok (n, .vector _ l) => n == name && type == b!"Vector" && vectorRepr prec l == repr
  | .ok (n, .set _ l) => n == name && type == b!"Set" && setRepr prec l == repr
  | .ok (n, .dictionary _ _ l) => n == name && type == b!"Dictionary" && dictRepr prec l == repr
  | _ => false

/-- The constructor throws. -/
def throws {α : Type} : Res α → Bool
  | .err _ => true
  | _ => false

""")
ni=0
ctor={'Boolean':'boolean','Character':'character','Integer':'integer','Float':'float','String':'string'}
def build(cls,args):
    """a C++ constructor call as a Lean term, and whether it takes a message"""
    m=re.match(r'('+STR+r')$',args)
    if m: return f'getSharedInstance b!"{cls}" {lit(m.group(1))}',False,lit(m.group(1))
    m=re.match(r'(.*), std::vector<std::string>\((.*)\)$',args)
    ss=re.findall(STR,m.group(1)); va='['+', '.join(map(lit,re.findall(STR,m.group(2))))+']'
    if cls=='Vector': f=f'newContainer (.vector {lit(ss[0])} [])'
    elif cls=='Set': f=f'newContainer (.set {lit(ss[0])} [])'
    elif cls=='Dictionary': f=f'newContainer (.dictionary {lit(ss[0])} {lit(ss[1])} [])'
    else: f='new'+cls
    return f'{f} {lit(ss[-1])} {va}',True,None
for mt in re.finditer(r'TEST_F\(\w+, (\w+)\) \{\n(.*?)\n\}\n',q,re.S):
    line=q[:mt.start()].count('\n')+1; b=mt.group(2)
    items=[]
    th=re.findall(r'EXPECT_ANY_THROW\((\w+)Instance\((.*)\)\);',b)
    if th:
        for cls,a in th: items.append(f'throws ({build(cls,a)[0]})'); ni+=1
    else:
        cls,a=re.match(r'\s*(\w+)Instance \w+\((.*)\);',b).groups()
        ty=re.search(r'\.type\(\), ('+STR+')',b).group(1); nm=re.search(r'\.name\(\), ('+STR+')',b).group(1); rp=re.search(r'\.representation\(\), ('+STR+')',b).group(1)
        v=re.search(r'\.value\(\), (.*)\);',b); ni+=3+bool(v)
        if v:
            v=v.group(1)
            if v[0]=="'": v=str(ord(eval(v)))
            elif v[0]=='"': v=lit(v)
            v=f'(some (.{ctor[cls]} ({v})))'
        else: v='none'
        if re.match(r'[\d.]+$',a): items.append((f'looksLike (.integer {a})' if cls=='Integer' else f'looksLike (.float (atof b!"{a}").toF32)')+f' {lit(ty)} {v} {lit(rp)}')
        else:
            f,msg,r=build(cls,a)
            items.append(f'fromMessage ({f}) {lit(ty)} {lit(nm)} {v} {lit(rp)}' if msg else f'fromRepr {lit(ty)} {r} {v} {lit(rp)}')
    t+=f'/-- `tests/instance_test.cpp:{line}` -/\nexample : ('+' &&\n  '.join(items)+') = true := by decide +kernel\n\n'
t+='end Knuckle.Validation\n'
open(OUT+'Instance.lean','w').write(t)
print('instance',ni,'context',n,'skipped lines',skipped,'grammar',ng,'parser',np,'str_utils',ns)
