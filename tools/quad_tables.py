#!/usr/bin/env python3
"""Generates lean/Verif/Model/TriaTab*.lean and lean/Verif/Lemmas/TriaChk*.lean from
/repo/lib/lf/quad/quad_rules_tria.cc."""
import re
from fractions import Fraction
from pathlib import Path

SRC = Path('/repo/lib/lf/quad/quad_rules_tria.cc')
OUT = Path(__file__).resolve().parent.parent / 'lean' / 'Verif'
SCALE = 10 ** 25

rules, cur = {}, None
for ln, l in enumerate(SRC.read_text().split('\n'), 1):
    if m := re.match(r'QuadRule HardcodedQuadRule<base::RefEl::kTria\(\), (\d+)>\(\)', l):
        cur = dict(start=ln, p={}, w={})
        assert int(m[1]) not in rules
        rules[int(m[1])] = cur
        d = int(m[1])
    elif m := re.match(r'  Eigen::MatrixXd points\(2, (\d+)\);', l):
        cur['n'] = int(m[1])
    elif m := re.match(r'  Eigen::VectorXd weights\((\d+)\);', l):
        assert cur['n'] == int(m[1])
    elif m := re.match(r'  points\((\d), (\d+)\) = (.*);', l):
        k = int(m[1]), int(m[2])
        assert k not in cur['p']
        cur['p'][k] = m[3]
    elif m := re.match(r'  weights\((\d+)\) = (.*);', l):
        assert int(m[1]) not in cur['w']
        cur['w'][int(m[1])] = m[2]
    elif m := re.match(r'  return QuadRule\(base::RefEl::kTria\(\), std::move\(points\), std::move\(weights\), (\d+)\);', l):
        assert int(m[1]) == d
        cur['end'] = ln
    else:
        assert cur is None or l.strip() in ('', 'template<>', '}') or ln > 24640, (ln, l)

assert sorted(rules) == [1, 2] + list(range(4, 51))
for d, r in rules.items():
    assert set(r['w']) == set(range(r['n'])) and set(r['p']) == {(i, j) for i in (0, 1) for j in range(r['n'])}


def scaled(s):
    v = Fraction(s) * SCALE
    assert v.denominator == 1 and v >= 0
    return int(v)


groups, acc, g = [], 0, []
for d in sorted(rules):
    cost = rules[d]['n'] * (d + 1) * (d + 2) // 2
    if g and acc + cost > 850000:
        groups.append(g)
        g, acc = [], 0
    g.append(d)
    acc += cost
groups.append(g)

for k, g in enumerate(groups, 1):
    s = 'import Verif.Model.TriaTabBase\n\n'
    s += '/-! Generated by tools/quad_tables.py from /repo/lib/lf/quad/quad_rules_tria.cc. -/\n\nnamespace Verif\n'
    for d in g:
        r = rules[d]
        s += f"\n/-- `HardcodedQuadRule<kTria, {d}>()`; /repo/lib/lf/quad/quad_rules_tria.cc:{r['start']}-{r['end']}. -/\n"
        s += f'def triaTab{d} : List TabRow := [\n'
        s += ',\n'.join(f"  ⟨{scaled(r['w'][i])}, {scaled(r['p'][0, i])}, {scaled(r['p'][1, i])}⟩" for i in range(r['n']))
        s += ']\n'
    s += '\nend Verif\n'
    (OUT / 'Model' / f'TriaTab{k}.lean').write_text(s)
    c = f'import Verif.Model.TriaTab{k}\nimport Verif.Lemmas.TriaChkBase\n\n'
    c += '/-! Generated by tools/quad_tables.py: the moments of the tabulated rules. -/\n\nnamespace Verif\n'
    for d in g:
        c += f'\ntheorem triaTab{d}_rows : tabRows triaTab{d} = true := by decide +kernel\n'
        for a in range(d + 1):
            c += f'theorem triaTab{d}_c{a} : tabCol triaTab{d} {a} {d + 1 - a} = true := by decide +kernel\n'
        c += f'theorem triaTab{d}_ok : TabOk {d} triaTab{d} := ⟨triaTab{d}_rows,\n'
        c += '  ' + ''.join('allLt_succ (' for a in range(d + 1)) + 'allLt_zero'
        for a in range(d + 1):
            c += f') triaTab{d}_c{a}'
        c += '⟩\n'
    c += '\nend Verif\n'
    (OUT / 'Lemmas' / f'TriaChk{k}.lean').write_text(c)
s = ''.join(f'import Verif.Model.TriaTab{k}\n' for k in range(1, len(groups) + 1))
s += '\n/-! Generated by tools/quad_tables.py. -/\n\nnamespace Verif\n\n'
s += '/-- The tabulated rules by their degree; /repo/lib/lf/quad/quad_rules_tria.cc.  There is none of degree 3. -/\n'
s += 'def triaTab : ℕ → List TabRow\n'
for d in sorted(rules):
    s += f'  | {d} => triaTab{d}\n'
s += '  | _ => []\n\nend Verif\n'
(OUT / 'Model' / 'TriaTab.lean').write_text(s)
s = ''.join(f'import Verif.Lemmas.TriaChk{k}\n' for k in range(1, len(groups) + 1))
s += 'import Verif.Model.TriaTab\n'
s += '\n/-! Generated by tools/quad_tables.py. -/\n\nnamespace Verif\n\n'
s += 'theorem triaTab_ok : ∀ d, 1 ≤ d → d ≤ 50 → d ≠ 3 → TabOk d (triaTab d)\n'
for d in sorted(rules):
    s += f'  | {d}, _, _, _ => triaTab{d}_ok\n'
s += '  | 0, h, _, _ => absurd h (by decide)\n  | 3, _, _, h => absurd rfl h\n  | n + 51, _, h, _ => absurd h (by omega)\n'
s += '\nend Verif\n'
(OUT / 'Lemmas' / 'TriaChk.lean').write_text(s)
print(groups)
