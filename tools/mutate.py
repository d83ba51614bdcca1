#!/usr/bin/env python3
"""Mutation testing of the theorems.

mutate.py FILE.json...   each file holds a list of {"area", "file", "definition", "old", "new", "edit", "claim"}.

For every entry the modules of the area are concatenated in a scratch file outside of /verif, the edit is applied and
the file is checked by Lean. A property theorem counts as failed if it has an error or rests on a lemma that has one
(Lean then reports the axiom sorryAx). With "roots" only these modules of the area are checked. One line per attempt is appended to seeded/LOG.jsonl.
"""
import json, os, re, subprocess, sys, tempfile

ROOT = os.path.join(os.path.dirname(os.path.abspath(__file__)), '..')
LEAN = os.path.join(ROOT, 'lean')


def read(mod):
    with open(os.path.join(LEAN, *mod.split('.')) + '.lean') as f:
        return f.read()


def imports(text):
    return re.findall(r'^import (\S+)', text, re.M)


def closure(area, mod, edited, seen, order):
    """Modules of the area (or importing the edited file) in dependency order."""
    if mod in seen:
        return
    seen.add(mod)
    for m in imports(read(mod)):
        if m.startswith('Verif.'):
            closure(area, m, edited, seen, order)
    order.append(mod)


def main():
    manifest = json.load(open(os.path.join(ROOT, 'MANIFEST.json')))
    for path in sys.argv[1:]:
        for mu in json.load(open(path)):
            area = mu['area']
            edited = f"Verif.{area}.{mu['file']}" if '.' not in mu['file'] else mu['file']
            order = []
            seen = set()
            for fn in sorted(os.listdir(os.path.join(LEAN, 'Verif', area))):
                if fn.endswith('.lean') and fn[:-5] in mu.get('roots', [fn[:-5]]):
                    closure(area, f'Verif.{area}.{fn[:-5]}', edited, seen, order)
            # every module from the edited one on is inlined, the others imported
            inl = []
            for m in order:
                if m.startswith(f'Verif.{area}.') or m == edited or any(i in inl for i in imports(read(m))):
                    inl.append(m)
            if edited not in order:
                print('!! module not found', edited); sys.exit(1)
            imps, body = [], []
            for m in inl:
                t = read(m)
                if m == edited:
                    if t.count(mu['old']) < 1:
                        print('!! pattern not found', mu); sys.exit(1)
                    t = t.replace(mu['old'], mu['new'], mu.get('count', 1))
                for i in imports(t):
                    if i not in inl and i not in imps:
                        imps.append(i)
                body.append(re.sub(r'^import .*$', '', t, flags=re.M))
            thms = [t for c in manifest['claims'] for t in c['theorems'] if t.startswith(f'Verif.{area}.')]
            thms = list(dict.fromkeys(thms))
            if 'roots' in mu:  # only the theorems of these modules and of those they import
                thms = [t for t in thms if re.search(r'theorem ' + re.escape(t.split('.')[-1]) + r'\b', '\n'.join(body))]
            src = ''.join(f'import {i}\n' for i in imps) + '\n'.join(body) + '\n' + \
                ''.join(f'#print axioms {t}\n' for t in thms)
            d = tempfile.mkdtemp(prefix='mut_')
            fn = os.path.join(d, 'M.lean')
            open(fn, 'w').write(src)
            r = subprocess.run(['lake', 'env', 'lean', fn], cwd=LEAN, capture_output=True, text=True)
            out = r.stdout + r.stderr
            out1 = re.sub(r'\n\s+', ' ', out)
            # a proof that ends in a time-out or is rejected by the kernel leaves no sorryAx: the declarations with errors
            lines = src.splitlines()
            broken = set()
            for m in re.finditer(r'M\.lean:(\d+):\d+: error', out):
                for k in range(min(int(m.group(1)), len(lines)) - 1, -1, -1):
                    x = re.match(r'(?:@\[.*\] *)?(?:private |noncomputable |protected )*(theorem|lemma|def|instance|example|structure|inductive|abbrev|#print)\b *(\S*)', lines[k])
                    if x:
                        broken.add(x.group(2))
                        break
            ok = []
            for t in thms:
                if t[len(f'Verif.{area}.'):] in broken or t.split('.')[-1] in broken:
                    continue
                m = re.search(r"'" + re.escape(t) + r"' (depends on axioms: \[([^\]]*)\]|does not depend on any axioms)", out1)
                if m and 'sorryAx' not in m.group(0):
                    ok.append(t)
            failed = [t for t in thms if t not in ok]
            errs = [l for l in out.splitlines() if ': error' in l]
            print('---', area, mu['definition'], ':', mu['edit'])
            print('   claim :', mu['claim'])
            print('   failed:', [t.split('.')[-1] for t in failed], f'({len(errs)} errors)')
            print('   ok    :', [t.split('.')[-1] for t in ok])
            if '--dry' not in sys.argv:
                with open(os.path.join(ROOT, 'seeded', 'LOG.jsonl'), 'a') as f:
                    f.write(json.dumps({"definition": f"{edited} {mu['definition']}", "edit": mu['edit'],
                                        "old": mu['old'], "new": mu['new'],
                                        "claim_broken": mu['claim'], "theorems_failed": failed,
                                        "theorems_still_proved": ok,
                                        "theorems_tightened": mu.get('tightened', [])}, ensure_ascii=False) + '\n')


main()
