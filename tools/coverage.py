"""Print the ranges of lines of /repo/src that no comment in the model cites."""
import glob, os, re
cited = {}
for f in glob.glob('/verif/lean/Verif/Model/*.lean'):
    text = open(f).read()
    for c in re.findall(r'/-.*?-/', text, re.S):
        cur = None
        for m in re.finditer(r'([\w/]+\.(?:hpp|inc))|\b(inc|hpp):|(?<![\w^])(\d+)(?:-(\d+))?', c):
            if m.group(1):
                cur = m.group(1).replace('src/', '')
            elif m.group(2):
                pass
            elif cur:
                a = int(m.group(3)); b = int(m.group(4) or a)
                cited.setdefault(os.path.basename(cur), set()).update(range(a, b + 1))
for root, _, fs in os.walk('/repo/src'):
    for f in sorted(fs):
        if not f.endswith(('.hpp', '.inc')):
            continue
        lines = open(os.path.join(root, f)).read().split('\n')
        s = cited.get(f, set())
        out = []
        for i, l in enumerate(lines, 1):
            t = l.strip()
            if i in s or not t or t.startswith(('//', '/*', '*', '#', '}')):
                continue
            out.append(i)
        # group
        g = []
        for i in out:
            if g and i - g[-1][1] <= 3: g[-1][1] = i
            else: g.append([i, i])
        print(f, len(out), 'uncited of', len(lines), ' '.join('%d-%d' % tuple(x) for x in g))
