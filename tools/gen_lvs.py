#!/usr/bin/env python3
"""Translate the layer derivations and connections of the LVS scripts into Lean.

Reads the scripts in /repo (following `%include`), keeps the assignments that the layers of the technology and of the
`connect` statements depend on, and writes lean/Verif/LvsRules/{Sky130A,Sg13g2}.lean.
"""
import os
import re
import sys

REPO = '/repo/pdk'
SEL = ('interacting', 'not_interacting', 'overlapping', 'not_overlapping', 'inside', 'outside', 'not_inside',
       'not_outside', 'covering', 'not_covering', 'with_area', 'without_area', 'with_holes', 'without_holes',
       'with_bbox_min', 'with_bbox_max', 'with_angle', 'rectangles', 'non_rectangles')


def lines_of(path, rel, base):
    """The lines of a script with the included ones in place."""
    for i, l in enumerate(open(path).read().split('\n'), 1):
        m = re.match(r'#\s*%include\s+(\S+)', l)
        if m:
            p = os.path.join(os.path.dirname(path), m.group(1))
            yield from lines_of(p, os.path.relpath(p, base), base)
        else:
            yield rel, i, l.split('#')[0].rstrip() if '#{' not in l else ''


class Opaque(Exception):
    pass


class Parser:
    def __init__(self, text, env):
        self.toks = re.findall(r'\w+(?:\.\d+)?|[&+\-|.(),]|\S', text)
        self.i, self.env = 0, env

    def peek(self):
        return self.toks[self.i] if self.i < len(self.toks) else None

    def take(self, t=None):
        x = self.peek()
        if x is None or (t is not None and x != t):
            raise Opaque()
        self.i += 1
        return x

    def expr(self):
        e = self.term()
        while self.peek() in ('&', '+', '-', '|'):
            op = self.take()
            f = self.term()
            e = ({'&': 'and', '+': 'or', '|': 'or', '-': 'diff'}[op], e, f)
        return e

    def skip_args(self):
        depth = 0
        while True:
            t = self.take()
            if t == '(':
                depth += 1
            if t == ')':
                depth -= 1
                if depth == 0:
                    return

    def term(self):
        start = self.i
        t = self.take()
        if t == '(':
            e = self.expr()
            self.take(')')
        elif t in ('polygons', 'get_polygons', 'input', 'labels'):
            self.take('(')
            a = int(self.take())
            self.take(',')
            b = int(self.take())
            self.take(')')
            e = ('text' if t == 'labels' else 'drawn', a, b)
        elif t in self.env:
            e = ('var', self.env[t])
        elif re.fullmatch(r'[A-Za-z_]\w*', t) and self.peek() != '(':
            e = ('other', t)
        else:
            raise Opaque()
        while self.peek() == '.':
            self.take('.')
            m = self.take()
            if m in ('and', 'not', 'or', 'join'):
                self.take('(')
                f = self.expr()
                self.take(')')
                e = ({'and': 'and', 'not': 'diff', 'or': 'or', 'join': 'or'}[m], e, f)
            elif m == 'merged' and self.peek() != '(':
                pass
            elif m in SEL:
                if self.peek() == '(':
                    self.skip_args()
                e = ('some', self.tag(start), e)
            else:
                if self.peek() == '(':
                    self.skip_args()
                e = ('made', self.tag(start), e)
        return e

    def tag(self, start):
        return ''.join(self.toks[start:self.i])

    def all(self):
        e = self.expr()
        if self.peek() is not None:
            raise Opaque()
        return e


def device(text, env):
    """`extract_devices(extractor('model', …), { 'key' => layer, … })`."""
    m = re.match(r"extract_devices\(\s*(\w+)(?:\.|::)?(?:new)?\(\s*['\"]([^'\"]+)['\"](.*)$", text)
    rest = m.group(3)
    layers = []
    for key, rhs in re.findall(r"['\"](\w+)['\"]\s*=>\s*((?:[^,(){}]|\([^()]*\))+)", rest):
        layers.append((key, rhs.strip(), Parser(rhs.strip(), env).all()))
    return m.group(1), m.group(2), layers


def read(path, base, devices=None):
    env, defs, connects, exported = {}, {}, [], []
    pending = None
    for rel, no, l in lines_of(path, os.path.relpath(path, base), base):
        s = l.strip()
        if pending is None and s.startswith('extract_devices('):
            pending = (rel, no, '')
        if pending is not None:
            pending = (pending[0], pending[1], pending[2] + ' ' + s)
            if pending[2].count('(') == pending[2].count(')'):
                if devices is not None:
                    devices.append((pending[0], pending[1]) + device(pending[2].strip(), env))
                pending = None
            continue
        m = re.match(r'connect\(\s*(\w+)\s*,\s*(\w+)\s*\)$', s)
        if m:
            connects.append((m.group(1), m.group(2), rel, no))
            continue
        m = re.match(r'(\w+)\s*=\s*([^=].*)$', s)
        if m and re.match(r'[a-z]', m.group(1)):
            n, rhs = m.groups()
            k = f'{n}@{no}' if n in env else n
            try:
                # in a branch; the layers of fuses are assigned and used in the same branch
                if l[0] in ' \t' and not n.endswith('_fuse_res_layer'):
                    raise Opaque()
                e = Parser(rhs, env).all()
            except (Opaque, ValueError):
                e = ('other', n)
            defs[k] = (e, rel, no, s)
            env[n] = k
    # names given to layers
    text = '\n'.join(l for _, _, l in lines_of(path, '', base))
    for m in re.finditer(r'%w\(([^)]*)\)', text):
        exported += m.group(1).split()
    return env, defs, connects, exported


def deps(e):
    if e[0] == 'var':
        yield e[1]
    for x in e[1:]:
        if isinstance(x, tuple):
            yield from deps(x)


def lean(e, local):
    k = e[0]
    if k == 'var':
        return local[e[1]]
    if k in ('drawn', 'text'):
        return f'.{k} {e[1]} {e[2]}'
    if k == 'other':
        return f'.other "{e[1]}"'
    if k in ('some', 'made'):
        return f'.{k} "{e[1]}" {paren(e[2], local)}'
    return f'.{k} {paren(e[1], local)} {paren(e[2], local)}'


def paren(e, local):
    x = lean(e, local)
    return f'({x})' if ' ' in x else x


def wrap(items, width=118):
    out, line = [], '  '
    for i, x in enumerate(items):
        x += ',' if i + 1 < len(items) else ']'
        if len(line) + len(x) + 1 > width:
            out.append(line.rstrip())
            line = '  '
        line += x + ' '
    return '\n'.join(out + [line.rstrip()])


def computed(cpp):
    return [m[0] for m in re.findall(
        r'addComputedLayer\(tech,\s*\w+,\s*\w+,\s*"([^"]+)",\s*(\d+)', open('/repo/cxx/gen_tech_pb/pdk/' + cpp).read())]


def write(ns, script, cpp, target):
    path = os.path.join(REPO, script)
    env, defs, connects, exported = read(path, os.path.dirname(path))
    wanted = []
    for n in computed(cpp) + [x for c in connects for x in c[:2]]:
        if n not in wanted:
            wanted.append(n)
    need, todo = set(), [env[n] for n in wanted]
    while todo:
        k = todo.pop()
        if k not in need:
            need.add(k)
            todo += list(deps(defs[k][0]))
    local, seen = {}, {}
    for k in defs:
        n = k.split('@')[0]
        if k in need:
            seen[n] = seen.get(n, 0) + 1
            local[k] = n if seen[n] == 1 else f'{n}_{seen[n]}'
    assert len(set(local.values())) == len(local)
    o = [f'''import Verif.LvsRules.Model

/-!
# Layers and connections of the LVS script of {ns}

Translated by `tools/gen_lvs.py` from `pdk/{script}`
and the files it includes: every assignment that a layer of the technology or of a `connect` statement depends on, in the
order of the script. A second assignment to a variable has the suffix `_2`.
-/

namespace Verif.LvsRules.{ns}
''']
    for k in defs:
        if k in need:
            e, rel, no, src = defs[k]
            src = re.sub(r'\s+', ' ', src)
            o.append(f'/-- `{src}`; {rel} {no}. -/\ndef «{local[k]}» : Expr := ' +
                     lean_q(e, local) + '\n')
    o.append('/-- The layers of the technology and of the `connect` statements, by name. -/\n'
             'def layers : List (String × Expr) := [\n' + wrap([f'("{n}", «{local[env[n]]}»)' for n in wanted]) + '\n')
    o.append('/-- The `connect` statements, in the order of the script. -/\n'
             'def connects : List (String × String) := [\n' + wrap([f'("{a}", "{b}")' for a, b, _, _ in connects]) + '\n')
    o.append('/-- The names given to layers with `name(eval(l), l)`, in the order of the script. -/\n'
             'def names : List String := [\n' + wrap([f'"{n}"' for n in exported]) + '\n')
    o.append('/-- The script. -/\ndef script : Script := ⟨layers, connects, names⟩\n')
    o.append(f'end Verif.LvsRules.{ns}\n')
    open(target, 'w').write('\n'.join(o))
    return local


def write_devices(ns, script, local, target):
    path = os.path.join(REPO, script)
    devices = []
    env, defs, _, _ = read(path, os.path.dirname(path), devices)
    need, todo = set(), [k for d in devices for _, _, e in d[4] for k in deps(e)]
    while todo:
        k = todo.pop()
        if k not in need:
            need.add(k)
            todo += list(deps(defs[k][0]))
    local = dict(local)
    for k in defs:
        if k in need and k not in local:
            n, i = k.split('@')[0], 1
            m = n
            while m in local.values():
                i += 1
                m = f'{n}_{i}'
            local[k] = '+' + m
    new = [k for k in defs if k in need and local[k][0] == '+']
    local = {k: v.lstrip('+') for k, v in local.items()}
    o = [f'''import Verif.LvsRules.Device
import Verif.LvsRules.{ns}

/-!
# Devices of the LVS script of {ns}

Translated by `tools/gen_lvs.py` from `pdk/{script}` and the files it includes: the statements `extract_devices`, and every
assignment that they depend on and that is not in `Verif.LvsRules.{ns}`. A second assignment to a variable has the suffix `_2`.
-/

namespace Verif.LvsRules.{ns}
''']
    for k in new:
        e, rel, no, src = defs[k]
        src = re.sub(r'\s+', ' ', src)
        o.append(f'/-- `{src}`; {rel} {no}. -/\ndef «{local[k]}» : Expr := ' + lean_q(e, local) + '\n')
    for i, (rel, no, ext, model, layers) in enumerate(devices):
        o.append(f'/-- {rel} {no}. -/\ndef device{i} : DeviceRule := ⟨"{ext}", "{model}", [\n' +
                 wrap([f'("{k}", "{t}", {lean_q(e, local)})' for k, t, e in layers]) + '⟩\n')
    o.append('/-- The devices, in the order of the script. -/\ndef devices : List DeviceRule := [\n' +
             wrap([f'device{i}' for i in range(len(devices))]) + '\n')
    o.append(f'end Verif.LvsRules.{ns}\n')
    open(target, 'w').write('\n'.join(o))


def lean_q(e, local):
    return lean(e, {k: f'«{v}»' for k, v in local.items()})


if __name__ == '__main__':
    here = os.path.join(os.path.dirname(os.path.dirname(os.path.abspath(__file__))), 'lean/Verif/LvsRules')
    for ns, script, cpp in (('Sky130A', 'sky130A/libs.tech/kpex/sky130.lvs', 'sky130A.cpp'),
                            ('Sg13g2', 'ihp_sg13g2/libs.tech/kpex/sg13g2.lvs', 'ihp_sg13g2.cpp')):
        local = write(ns, script, cpp, os.path.join(here, ns + '.lean'))
        write_devices(ns, script, local, os.path.join(here, ns + 'Devices.lean'))
