"""List names defined in more than one Lean file."""
import glob, re, collections
d = collections.defaultdict(list)
for f in glob.glob('/verif/lean/Verif/**/*.lean', recursive=True):
    ns = []
    for l in open(f):
        m = re.match(r'namespace (\S+)', l)
        if m: ns.append(m.group(1))
        m = re.match(r'end (\S+)', l)
        if m and ns: ns.pop()
        m = re.match(r'(?:@\[.*\] )?(?:noncomputable )?(?:def|theorem|structure|lemma|abbrev|inductive) (\S+)', l)
        if m: d['.'.join(ns) + '.' + m.group(1)].append(f)
for k, v in d.items():
    if len(v) > 1: print(k, v)
