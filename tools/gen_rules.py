#!/usr/bin/env python3
"""Translates lrvm_tools/src/lasm/customasm.def into lean/Verif/Model/Tools/LasmRules.lean, one entry per rule.
Usage: gen_rules.py < customasm.def > LasmRules.lean"""
import re, sys
src = sys.stdin.read().split('\n')
subs, rules, cur, start = {}, [], None, {}
for ln, line in enumerate(src, 1):
    line = line.split(';')[0].rstrip()
    m = re.match(r'#subruledef (\w+)', line)
    if m: cur = m.group(1); subs[cur] = []; start[cur] = ln; continue
    if line.startswith('#ruledef'): cur = '*'; continue
    if '=>' not in line: continue
    pat, prod = [x.strip() for x in line.split('=>')]
    prod = prod.rstrip('}').strip()
    if cur != '*':
        subs[cur].append((pat, int(prod, 0), ln)); continue
    mn = pat.split()[0]
    params = re.findall(r'\{(\w+):\s*(\w+)\}', pat)
    names = [p[0] for p in params]
    out = []
    for e in prod.split('@'):
        e = e.strip()
        m = re.match(r'\(\((0x\w+) << 3\) \+ (0b\d+)\)\[7:0\]$', e)
        if m: out.append(f'.byte {(int(m.group(1), 0) << 3) + int(m.group(2), 0):#04x}'); continue
        m = re.match(r'(0x\w+)$', e)
        if m: out.append(f'.byte {int(m.group(1), 0):#04x}'); continue
        m = re.match(r'(\w+)\[(\d+):(\d+)\]$', e)
        assert m, (ln, e)
        if m.group(1) not in names: out.append('.undefined'); continue
        f = {'7': 'low', '15': 'high'}[m.group(2)]
        assert (m.group(2), m.group(3)) in [('7', '0'), ('15', '8')]
        out.append(f'.{f} {names.index(m.group(1))}')
    rules.append((mn, [p[1] for p in params], out, ln))
T = {'reg': 'reg', 'arflag': 'arflag', 'div_mode': 'divMode', 'hw_info': 'hwInfo', 'if2_mode': 'if2Mode',
     'u8': 'u8', 'u16': 'u16', 'i8': 'i8', 'i16': 'i16'}
print('''import Verif.Model.Prelude

/-!
# The rules of the LASM assembler (`lrvm_tools/src/lasm/customasm.def`)

Generated by `tools/gen_rules.py`, one entry per line of the source. The values `((op << 3) + bits)[7:0]` are computed.
-/

namespace Lrvm.Lasm

/-- The type of a parameter of a rule: a `#subruledef`, or an expression of a given width. -/
inductive Pat
  | reg | arflag | divMode | hwInfo | if2Mode | u8 | u16 | i8 | i16
  deriving DecidableEq, Repr

/-- One byte that a rule produces: a constant, `p[7:0]` or `p[15:8]` of a parameter, or bits of a name that is no
parameter of the rule. -/
inductive Field
  | byte (n : Nat)
  | low (param : Nat)
  | high (param : Nat)
  | undefined
  deriving DecidableEq, Repr

/-- A rule: the mnemonic, the parameters (separated by commas) and the bytes produced. -/
structure Rule where
  mnemonic : String
  params : List Pat
  out : List Field
  deriving DecidableEq, Repr
''')
L = 'lrvm_tools/src/lasm/customasm.def'
for n, d in [('reg', 'regNames'), ('arflag', 'arflagNames'), ('div_mode', 'divModeNames'), ('hw_info', 'hwInfoNames'), ('if2_mode', 'if2ModeNames')]:
    es = subs[n]
    print(f'/-- `#subruledef {n}`, `{L}:{es[0][2]}-{es[-1][2]}`. -/')
    print(f'def {d} : List (String × Nat) :=\n  [' + ',\n   '.join(f'("{p}", {v:#04x})' for p, v, _ in es) + ']\n')
print(f'/-- `#ruledef`, `{L}:{rules[0][3]}-{rules[-1][3]}`. -/')
print('def rules : List Rule :=\n  [' + ',\n   '.join(
    f'⟨"{mn}", [{", ".join("."+T[p] for p in ps)}], [{", ".join(out)}]⟩' for mn, ps, out, _ in rules) + ']\n')
print('end Lrvm.Lasm')
