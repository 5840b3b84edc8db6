"""Write MANIFEST.json and lean/Verif.lean from the theorem names in lean/Verif/Props and tools/notes.json."""
import json, re, glob, os
root = os.path.dirname(os.path.dirname(os.path.abspath(__file__)))
mods = sorted(glob.glob(root + '/lean/Verif/**/*.lean', recursive=True))
with open(root + '/lean/Verif.lean', 'w') as f:
    for m in mods:
        f.write('import ' + os.path.relpath(m, root + '/lean')[:-5].replace('/', '.') + '\n')
props = [json.loads(l) for l in open(root + '/properties.jsonl') if l.strip()]
notes = json.load(open(root + '/tools/notes.json'))
thms = {}
for m in mods:
    if '/Props/' not in m:
        continue
    ns = []
    for line in open(m):
        w = line.split()
        if line.startswith('namespace '):
            ns.append(w[1])
        elif line.startswith('end ') and ns and w[1] == ns[-1]:
            ns.pop()
        else:
            g = re.match(r'theorem (C\d+)(_\w+)', line)
            if g:
                thms.setdefault(g.group(1), []).append('.'.join(ns + [g.group(1) + g.group(2)]))
docs = {}
for m in mods:
    if '/Props/' in m:
        for g in re.finditer(r'/--((?:(?!-/).)*)-/\s*(?:open Classical in\s*)?(?:@\[[^\]]*\]\s*)?theorem (C\d+_\w+)', open(m).read(), re.S):
            docs[g.group(2)] = ' '.join(g.group(1).split()).replace('**', '')
def auto_note(t):
    """the comments of the theorems that show what is missing"""
    t = [x.split('.')[-1] for x in t]
    return ' '.join('[%s] %s' % (x, docs.get(x, '')) for x in t if '_violated' in x or x.endswith('_partial'))
claims = []
for p in props:
    i = p['id']
    t = thms.get(i, [])
    n = notes.get(i, {})
    partial = any(x.endswith('_partial') or '_violated' in x for x in t)
    status = n.get('status') or ('partial' if partial or not t else 'proved')
    claims.append({'property': i, 'status': status, 'theorems': t, 'note': ' '.join(filter(None, [n.get('note', ''), auto_note(t) if t else 'not yet modelled']))})
json.dump({'claims': claims}, open(root + '/MANIFEST.json', 'w'), indent=1, ensure_ascii=False)
print({s: sum(c['status'] == s for c in claims) for s in ('proved', 'partial', 'not_applicable')},
      'theorems', sum(len(c['theorems']) for c in claims), 'missing', [c['property'] for c in claims if not c['theorems']])

# section 5 of DESIGN.md
out = []
for p in props:
    v = [x.split('.')[-1] for x in thms.get(p['id'], []) if '_violated' in x]
    if v:
        out.append('* **%s** %s.' % (p['id'], p['title']))
        for x in v:
            out.append('  * `%s`: %s' % (x, docs.get(x, '')))
d = open(root + '/DESIGN.md').read()
a, rest = d.split('<!-- findings -->')[0], d.split('<!-- end findings -->')[1]
open(root + '/DESIGN.md', 'w').write(a + '<!-- findings -->\n' + '\n'.join(out) + '\n<!-- end findings -->' + rest)
