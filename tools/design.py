#!/usr/bin/env python3
"""Rewrite the list of axioms in DESIGN.md. Needs a finished `lake build`."""
import pathlib, re, subprocess, tempfile
root = pathlib.Path(__file__).resolve().parent.parent
script = r'''
import Verif
import Lean.Util.CollectAxioms
open Lean

run_cmd
  let env ← getEnv
  for (n, ci) in env.constants.toList do
    if (`Lulua.Props).isPrefixOf n && ci.isTheorem && !n.isInternal then
      let s := n.componentsRev.head!.toString
      if s.startsWith "C" && (s.toList.getD 1 ' ').isDigit then
        let ax ← Elab.Command.liftCoreM (Lean.collectAxioms n)
        IO.println s!"THM {n} {" ".intercalate (ax.toList.map toString)}"
'''
with tempfile.NamedTemporaryFile('w', suffix='.lean') as fd:
    fd.write(script)
    fd.flush()
    out = subprocess.run(['lake', 'env', 'lean', fd.name], cwd=root/'lean', capture_output=True, text=True).stdout
groups, n = {}, 0
for l in out.splitlines():
    if l.startswith('THM '):
        _, name, *ax = l.split()
        groups.setdefault(tuple(sorted(ax)), []).append(name.removeprefix('Lulua.Props.'))
        n += 1
known = {'propext', 'Classical.choice', 'Quot.sound'}
lines = [f'{n} property theorems (namespace `Lulua.Props`), grouped by the axioms Lean reports for them.', '']
for ax in sorted(groups, key=lambda a: (len(a), a)):
    assert set(ax) <= known, (ax, groups[ax])
    title = ', '.join(f'`{a}`' for a in ax) if ax else 'no axiom'
    names = ', '.join(f'`{x}`' for x in sorted(groups[ax]))
    lines += [f'* **{title}** ({len(groups[ax])}): {names}', '']
f = root/'DESIGN.md'
s = f.read_text()
new = re.sub(r'(<!-- axioms -->\n).*?(<!-- /axioms -->)', lambda m: m[1] + '\n'.join(lines) + m[2], s, flags=re.S)
f.write_text(new)
print(n, 'theorems')
