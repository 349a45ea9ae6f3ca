import re
src=open('/verif/lean/Verif/Model/Tools/LasmRules.lean').read()
rules=re.findall(r'⟨("(\w+)", \[.*?\], \[.*?\])⟩[,\]]', src)
from collections import OrderedDict
d=OrderedDict()
for full,mn in rules: d.setdefault(mn,[]).append('⟨'+full+'⟩')
print('''import Verif.Lemmas.Lasm

/-!
# The rules of each mnemonic

Generated from `Model/Tools/LasmRules.lean`; each list is checked by evaluation.
-/

namespace Lrvm

open Lasm
''')
for mn,rs in d.items():
    print(f'theorem rulesFor_{mn} : (rules.filter fun r => r.mnemonic.toList == "{mn}".toList) =\n    [' + ',\n     '.join(rs) + '] := by decide +kernel\n')
print('end Lrvm')
