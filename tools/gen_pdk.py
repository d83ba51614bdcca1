#!/usr/bin/env python3
"""Translate the technology definitions of /repo/cxx/gen_tech_pb/pdk to Lean (lean/Verif/Pdk)."""
import os, re

ROOT = os.path.dirname(os.path.dirname(os.path.abspath(__file__)))
SRC = '/repo/cxx/gen_tech_pb/pdk'

PURPOSE = {'DNWELL': '.dnwell', 'NWELL': '.nwell', 'PWELL': '.pwell', 'DIFF': '.diff', 'N_P_TAP': '.ntapOrPtap',
           'NTAP': '.ntap', 'PTAP': '.ptap', 'PIMP': '.pImplant', 'NIMP': '.nImplant', 'CONT': '.contact',
           'METAL': '.metal', 'VIA': '.via', 'MIM': '.mimCap',
           'KREG': '.regular', 'KCAP': '.deviceCapacitor', 'KRES': '.deviceResistor', 'KPIN': '.pin', 'KLBL': '.label'}


def split_args(s):
    out, cur, q, depth = [], '', False, 0
    for c in s:
        if c == '"':
            q = not q
        if not q and c == '(':
            depth += 1
        if not q and c == ')':
            depth -= 1
        if c == ',' and not q and depth == 0:
            out.append(cur.strip())
            cur = ''
        else:
            cur += c
    out.append(cur.strip())
    return out


def strip_comments(line):
    line = re.sub(r'/\*.*?\*/', '', line)
    out, q = '', False
    i = 0
    while i < len(line):
        if line[i] == '"':
            q = not q
        if not q and line.startswith('//', i):
            break
        out += line[i]
        i += 1
    return out.rstrip()


def expr(a):
    """A C++ expression as a Lean term."""
    a = a.strip()
    if a in PURPOSE:
        return PURPOSE[a]
    if a.startswith('"'):
        return a
    if re.fullmatch(r'-[\d.]+', a) or re.search(r'[-+ ]', a):
        return '(' + a + ')'
    return a


def functions(lines):
    """(name, first line, last line) of the functions of a file."""
    out, start = [], None
    for n, l in enumerate(lines, 1):
        m = re.match(r'void (\w+)\(', l)
        if m:
            start = (m.group(1), n)
        if l.startswith('}') and start:
            out.append((*start, n))
            start = None
    return out


def gen(cpp, ns, title):
    lines = open(os.path.join(SRC, cpp)).read().split('\n')
    fn = {f[0]: f for f in functions(lines)}
    o = ['import Verif.Pdk.Model', '', '/-!', f'# {title}', '',
         f'Translated by `tools/gen_pdk.py` from `cxx/gen_tech_pb/pdk/{cpp}`, call by call. The numbers at the ends of the',
         'lines are the lines of the source.', '-/', '', f'namespace Verif.Pdk.{ns}', '']

    def body(name):
        _, a, b = fn[name]
        for n in range(a + 1, b):
            l = strip_comments(lines[n - 1]).strip()
            if l:
                yield n, l

    def call(l):
        m = re.fullmatch(r'(?:auto (\w+)\s*=\s*)?(\w+)\((.*)\);', l)
        if not m:
            return None
        return m.group(1), m.group(2), split_args(m.group(3))

    # layers
    for name, ty, drop in (('buildLayers', 'LayerInfo', 1), ('buildLVSComputedLayers', 'ComputedLayer', 1)):
        _, a, b = fn[name]
        o.append(f'/-- `{name}`; pdk/{cpp} {a}–{b}. -/')
        o.append(f'def {name} : List {ty} := [')
        items = []
        for n, l in body(name):
            c = call(l)
            if c is None or not c[1].startswith('add'):
                assert re.match(r'auto K\w\w\w = ', l), l
                continue
            items.append((f'{c[1]} ' + ' '.join(expr(x) for x in c[2][drop:-1]), n))
        for i, (t, n) in enumerate(items):
            o.append(f'  {t}{"," if i + 1 < len(items) else "]"} -- {n}')
        o.append('')

    # process stack
    name = 'buildProcessStackInfo'
    _, a, b = fn[name]
    lets, items, ptr, contacts = [], [], {}, {}
    for n, l in body(name):
        c = call(l)
        m = re.fullmatch(r'auto (\w+)\s*=\s*(\w+)->mutable_contact_above\(\);', l)
        if m:
            contacts[m.group(1)] = m.group(2)
            ptr[m.group(2)] = ('{}', n)
        elif c and c[1] == 'setContact':
            args = c[2]
            ptr[contacts[args[0]]] = ('setContact ' + ' '.join(expr(x) for x in args[1:]), n)
        elif c and c[1].startswith('add'):
            items.append((c[0], f'{c[1]} ' + ' '.join(expr(x) for x in c[2][1:]), n))
        else:
            m = re.fullmatch(r'(?:double|auto) (\w+)\s*=\s*(.*);', l)
            assert m, l
            lets.append((m.group(1), m.group(2), n))
    o.append(f'/-- `{name}`; pdk/{cpp} {a}–{b}. The pointers to the contacts are resolved. -/')
    o.append(f'def {name} : List StackLayer :=')
    for v, e, n in lets:
        o.append(f'  let {v} : ℚ := {e} -- {n}')
    o.append('  [')
    for i, (v, t, n) in enumerate(items):
        end = ',' if i + 1 < len(items) else ']'
        if v in ptr:
            ct, cn = ptr[v]
            o.append(f'  {t}')
            o.append(f'    (some {"{}" if ct == "{}" else "(" + ct + ")"}){end} -- {n}, {cn}')
        else:
            o.append(f'  {t}{end} -- {n}')
    o.append('')

    # parasitics
    name = 'buildProcessParasiticsInfo'
    _, a, b = fn[name]
    tables = {'addLayerResistance': [], 'addContactResistance': [], 'addViaResistance': [], 'addSubstrateCap': [],
              'addOverlapCap': [], 'addSidewallCap': [], 'addSidewallOverlapCap': []}
    lets, halo = [], None
    for n, l in body(name):
        c = call(l)
        m = re.fullmatch(r'const std::string (\w+)\s*=\s*(".*");', l)
        h = re.fullmatch(r'ex->set_side_halo\((.*)\);', l)
        if h:
            halo = (h.group(1), n)
        elif m:
            lets.append((m.group(1), m.group(2), n))
        elif c and c[1] in tables:
            tables[c[1]].append((f'{c[1]} ' + ' '.join(expr(x) for x in c[2][1:]), n))
        else:
            assert re.match(r'kpex::tech::\w+ \*\w+ = ex->mutable_\w+\(\);', l), l
    fields = {'addLayerResistance': ('layerResistances', 'TechInfo.LayerResistance'),
              'addContactResistance': ('contactResistances', 'TechInfo.ContactResistance'),
              'addViaResistance': ('viaResistances', 'TechInfo.ViaResistance'),
              'addSubstrateCap': ('substrates', 'TechInfo.SubstrateCap'),
              'addOverlapCap': ('overlaps', 'TechInfo.OverlapSpec'),
              'addSidewallCap': ('sidewalls', 'TechInfo.SidewallSpec'),
              'addSidewallOverlapCap': ('sideoverlaps', 'TechInfo.SideOverlapSpec')}
    for f, its in tables.items():
        field, ty = fields[f]
        o.append(f'/-- The calls of `{f}` in `{name}`; pdk/{cpp} {its[0][1]}–{its[-1][1]}. -/')
        o.append(f'def {field} : List {ty} :=')
        text = '\n'.join(t for t, _ in its)
        for v, e, n in lets:
            if re.search(r'\b' + v + r'\b', text):
                o.append(f'  let {v} := {e} -- {n}')
        o.append('  [')
        for i, (t, n) in enumerate(its):
            o.append(f'  {t}{"," if i + 1 < len(its) else "]"} -- {n}')
        o.append('')
    o.append(f'/-- `{name}`; pdk/{cpp} {a}–{b}. -/')
    o.append(f'def {name} : TechInfo.Parasitics :=')
    o.append(f'  {{ sideHalo := {halo[0]}, ' + ', '.join(f'{x} := {x}' for x, _ in list(fields.values())[:3]))
    o.append('    ' + ', '.join(f'{x} := {x}' for x, _ in list(fields.values())[3:]) + ' }')
    o.append('')
    _, a, b = fn['buildTech']
    tn = [re.search(r'set_name\("(.*)"\)', l).group(1) for l in lines if 'set_name' in l][0]
    o.append(f'/-- `buildTech`; pdk/{cpp} {a}–{b}. -/')
    o.append('def tech : Technology :=')
    o.append(f'  {{ name := "{tn}", layers := buildLayers, computed := buildLVSComputedLayers, stack := buildProcessStackInfo')
    o.append('    parasitics := buildProcessParasiticsInfo }')
    o += ['', f'end Verif.Pdk.{ns}', '']
    open(os.path.join(ROOT, 'lean/Verif/Pdk', ns + '.lean'), 'w').write('\n'.join(o))


gen('sky130A.cpp', 'Sky130A', 'The technology definition of sky130A')
gen('ihp_sg13g2.cpp', 'Sg13g2', 'The technology definition of ihp_sg13g2')
