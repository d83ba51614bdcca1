"""Writes lean/Verif/Decks/VppRules.lean: the selections of capacitors between fingers in sky130.lvs."""
import os
import re

SRC = '/repo/pdk/sky130A/libs.tech/kpex/sky130.lvs'
OUT = os.path.join(os.path.dirname(os.path.abspath(__file__)), '..', 'lean', 'Verif', 'Decks', 'VppRules.lean')
COND = {'poly': 'poly', 'li': 'li', 'met3': 'met3', 'met4': 'met4', 'met5': 'met5', 'li.holes': 'liHole', 'met1.holes': 'met1Hole',
        'met4.holes': 'met4Hole', 'met5.covering(vpp)': 'met5Over', 'met5.not_covering(vpp)': 'met5Beside'}
OPS = re.compile(r'\.(not_interacting|interacting|not_covering|covering)\(((?:[^()]|\([^()]*\))*)\)')

out = ['''import Verif.Decks.Emitters

/-!
# The selections of capacitors between fingers of sky130A

Generated by tools/gen_vpp.py from pdk/sky130A/libs.tech/kpex/sky130.lvs. Lengths are in nanometres.
-/

namespace Verif.Decks.Vpp

/-- What a selection asks for besides the edges: shapes of a layer that touch the marker, holes of a layer inside of it, and shapes of met5
that touch it and cover a marker or cover none. -/
inductive Cond where
  | poly | li | met3 | met4 | met5 | liHole | met1Hole | met4Hole | met5Over | met5Beside
deriving DecidableEq

/-- A selection: the ranges of the edges that it asks for, and the conditions. -/
structure Rule where
  name : String
  edges : List Limits
  conds : List (Cond × Bool)
''']
windows, stacks, areas, rules = set(), set(), set(), []
for i, line in enumerate(open(SRC), 1):
    m = re.match(r'(vpp_\w+)\s*=\s*(vpp\..*?)\s*$', line)
    if not m or m[1] == 'vpp_sub':
        continue
    name, e = m.groups()
    doc = f'/-- sky130.lvs {i}. -/'
    k = re.fullmatch(r'vpp\.edges\.with_length\(([\d.]+)\s*,\s*([\d.]+)\s*\)', e)
    if k:
        windows.add(name)
        out.append(f'{doc}\ndef «{name}» : Limits := ⟨{round(float(k[1]) * 1000)}, {round(float(k[2]) * 1000)}⟩\n')
        continue
    ops = OPS.findall(e)
    assert 'vpp' + ''.join(f'.{o}({a})' for o, a in ops) == e, e
    ws, parts, own = [], [], []
    for o, a in ops:
        if a in windows:
            assert o == 'interacting'
            ws.append(a)
        elif a in areas:
            assert o == 'interacting'
            ws.append(a)
        elif a in stacks:
            assert o == 'interacting'
            parts.append(f'«{a}»')
        else:
            own.append(f'(.{COND[a]}, {"false" if o.startswith("not_") else "true"})')
    conds = ' ++ '.join(parts + (['[' + ', '.join(own) + ']'] if own or not parts else []))
    if len(ws) == 1 and ws[0] in areas:
        edges = f'«{ws[0]}»'
    else:
        assert all(w in windows for w in ws)
        edges = '[' + ', '.join(f'«{w}»' for w in ws) + ']'
    if not ws:
        stacks.add(name)
        out.append(f'{doc}\ndef «{name}» : List (Cond × Bool) := {conds}\n')
    elif re.fullmatch(r'vpp_\d\dp\dx\d\dp\d', name):
        areas.add(name)
        assert conds == '[]'
        out.append(f'{doc}\ndef «{name}» : List Limits := {edges}\n')
    else:
        rules.append((name, i, edges, conds))
out.append('/-- The selections that are the markers of devices; sky130.lvs %d–%d, with the devices in 2295–2524. -/' % (rules[0][1], rules[-1][1]))
out.append('def rules : List Rule :=\n  [' + ',\n    '.join(f'⟨"{n}", {e}, {c}⟩' for n, _, e, c in rules) + ']\n')
out.append('end Verif.Decks.Vpp\n')
open(OUT, 'w').write('\n'.join(out))
print(len(windows), len(stacks), len(areas), len(rules))
