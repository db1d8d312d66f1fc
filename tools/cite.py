#!/usr/bin/env python3
"""Check (or with --fix, repair) citations of the form  `name`, ... file.cpp:a-b  in the docstrings of the model:
the cited range must be the body of a definition of that name in that file of /repo."""
import re, sys, glob, os
fix = '--fix' in sys.argv
files = {}
for f in glob.glob('/repo/**/*.[ch]pp', recursive=True) + glob.glob('/repo/**/*.h', recursive=True):
    files.setdefault(os.path.basename(f), []).append(f)
def bodies(path, name):
    txt = open(path).read()
    out = []
    for m in re.finditer(r'(?<![\w.>])' + re.escape(name) + r'(?:<[^<>;(]*>)?\s*\(', txt):
        i = m.end(); depth = 1
        while i < len(txt) and depth:
            depth += {'(':1, ')':-1}.get(txt[i], 0); i += 1
        m2 = re.match(r'(?:\s|const|noexcept|override|->[^{;]*)*(:[^:;{][^;]*?)?\s*\{', txt[i:])
        if not m2: continue
        j = i + m2.end(); depth = 1
        while j < len(txt) and depth:
            depth += {'{':1, '}':-1}.get(txt[j], 0); j += 1
        out.append((txt.count('\n', 0, m.start()) + 1, txt.count('\n', 0, j - 1) + 1))
    for m in re.finditer(r'(?:class|struct)\s+(?:\w+_api\s+)?' + re.escape(name) + r'\b[^;{(]*\{', txt):
        j = m.end(); depth = 1
        while j < len(txt) and depth:
            depth += {'{':1, '}':-1}.get(txt[j], 0); j += 1
        out.append((txt.count('\n', 0, m.start()) + 1, txt.count('\n', 0, j - 1) + 1))
    return out
bad = 0
for f in sorted(glob.glob('/verif/lean/Verif/Model/*.lean')):
    src = open(f).read()
    def rep(m):
        global bad
        doc = m.group(0)
        names = re.findall(r'`([^`\n]+)`', doc)
        if not names: return doc
        name = re.split(r'::|\.', re.sub(r'<.*>', '', names[0]).strip())[-1].split('(')[0].strip()
        if names[0].strip().endswith('operator()'): name = 'operator()'
        def r2(c):
            global bad
            fn, a, b = c.group(1), int(c.group(2)), int(c.group(3))
            if fn not in files: print(f, 'unknown file', fn); bad += 1; return c.group(0)
            cands = [x for p in files[fn] for x in bodies(p, name)]
            if any(x[0] - 6 <= a <= x[0] and b == x[1] for x in cands): return c.group(0)
            if any(x[0] <= a and b <= x[1] for x in cands): return c.group(0)   # part of the body
            bad += 1
            near = sorted(cands, key=lambda x: abs(x[0] - a))[:1]
            print(os.path.basename(f), name, f'{fn}:{a}-{b}', '->', near)
            if fix and near and abs(near[0][0] - a) < 25: return f'{fn}:{near[0][0]}-{near[0][1]}'
            return c.group(0)
        return re.sub(r'([\w]+\.(?:cpp|h|hpp)):(\d+)-(\d+)', r2, doc)
    new = re.sub(r'/--.*?-/', rep, src, flags=re.S)
    if fix and new != src: open(f, 'w').write(new)
print('suspicious citations:', bad)
