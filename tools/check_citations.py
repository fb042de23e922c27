#!/usr/bin/env python3
"""Check (and with --fix, correct) citations of the form  `/repo/F.go:a-b` `Name`  in lean/Verif.

The range must cover the declaration of Name (func, type, const/var line) in F.go.
Ranges without a name are only checked to lie inside the file."""
import re, sys, pathlib
root = pathlib.Path('/verif/lean/Verif')
fix = '--fix' in sys.argv
bad = 0
def decl_range(lines, name):
    for i, l in enumerate(lines):
        if re.match(r'func (\([^)]*\) )?%s\(' % re.escape(name), l):
            j = i
            while not lines[j].startswith('}'):
                if j == i and l.rstrip().endswith('}'): break
                j += 1
            return i + 1, j + 1
        if re.match(r'type %s\b' % re.escape(name), l):
            j = i
            if l.rstrip().endswith('{'):
                while not lines[j].startswith('}'): j += 1
            return i + 1, j + 1
    return None
for f in sorted(root.rglob('*.lean')):
    s = f.read_text()
    def rep(m):
        global bad
        path, a, b, name = m.group(1), int(m.group(2)), int(m.group(3) or m.group(2)), m.group(4)
        try: lines = pathlib.Path('/repo/' + path).read_text().split('\n')
        except FileNotFoundError:
            print(f'{f}: no file {path}'); bad += 1; return m.group(0)
        if b > len(lines) or a > b:
            print(f'{f}: range {path}:{a}-{b} out of file'); bad += 1
        if name is None: return m.group(0)
        r = decl_range(lines, name)
        if r is None:
            if not any(name in l for l in lines[a-1:b]):
                print(f'{f}: {name} not in {path}:{a}-{b}'); bad += 1
            return m.group(0)
        if fix: return f'`/repo/{path}:{r[0]}-{r[1]}` `{name}`'
        if not (r[0] <= a and b <= r[1]):
            print(f'{f}: {name} is {r} but cited {path}:{a}-{b}'); bad += 1
        return m.group(0)
    t = re.sub(r'`/repo/([\w/]+\.go):(\d+)(?:-(\d+))?`(?: `(\w+)`)?', rep, s)
    if fix and t != s: f.write_text(t)
print('citation problems:', bad)
sys.exit(1 if bad else 0)
