"""Generate lean/Verif/Model/ThermoDataTables.lean from /repo/pycycle/thermo/cea/thermo_data/*.py.
Numbers are printed as the shortest decimal that denotes the same double as the source literal."""
import sys, types, re
from decimal import Decimal
np = types.ModuleType('numpy'); np.array = list
sys.modules['numpy'] = np
base = '/repo/pycycle/thermo/cea/thermo_data/'
def load(f):
    ns = {}
    exec(compile(open(base + f + '.py').read(), f, 'exec'), ns)
    return ns
def q(v):
    d = Decimal(repr(float(v)))
    s = format(d.normalize(), 'f') if -8 < d.adjusted() < 15 else str(d.normalize()).lower()
    s = s.replace('E', 'e').replace('e+', 'e')
    if s in ('-0',): s = '0'
    return s
def lines(f, name):
    src = open(base + f + '.py').read().split('\n')
    a = [i for i, l in enumerate(src) if re.match(r"\s*\('%s',\s*\{" % re.escape(name), l)][0]
    b = a
    while not re.match(r"\s*\}\)", src[b]): b += 1
    return '%d-%d' % (a + 1, b + 1)
out = ['''import Mathlib.Data.Rat.Defs
import Mathlib.Data.Rat.Init

/-! # The thermodynamic data modules (pycycle/thermo/cea/thermo_data)

Generated by tools/thermo_data.py from the source. Decimal literals are exact rationals here. -/

namespace PyCycle.Data

/-- One entry of `products`. -/
structure Prod where
  name : String
  elements : List (String × ℚ)
  wt : ℚ
  ranges : List ℚ
  coeffs : List (List ℚ)
''']
for f in ['janaf', 'co2_co_o2']:
    ns = load(f)
    names = []
    for k, d in ns['products'].items():
        nm = '%s_%s' % (f, re.sub(r'\W', '_', k)); names.append(nm)
        out.append('/-- `%s` (%s.py:%s). -/' % (k, f, lines(f, k)))
        out.append('def %s : Prod where' % nm)
        out.append('  name := "%s"' % k)
        out.append('  elements := [%s]' % ', '.join('("%s", %s)' % (e, q(v)) for e, v in d['elements'].items()))
        out.append('  wt := %s' % q(d['wt']))
        out.append('  ranges := [%s]' % ', '.join(q(v) for v in d['ranges']))
        rows = []
        for r in d['coeffs']:
            h = len(r) // 2
            rows.append('[%s,\n     %s]' % (', '.join(q(v) for v in r[:5]), ', '.join(q(v) for v in r[5:])))
        out.append('  coeffs := [\n    %s]' % ',\n    '.join(rows))
        out.append('')
    src = open(base + f + '.py').read().split('\n')
    a = [i for i, l in enumerate(src) if l.startswith('element_wts')][0]
    out.append('/-- `%s.products`, in source order. -/' % f)
    out.append('def %s : List Prod := [%s]' % (f, ', '.join(names)))
    out.append('')
    out.append('/-- `%s.element_wts` (%s.py:%d-%d). -/' % (f, f, a + 1, a + 3))
    out.append('def %s_wts : List (String × ℚ) := [%s]' % (f, ', '.join('("%s", %s)' % (e, q(v)) for e, v in ns['element_wts'].items())))
    out.append('')
    if 'reactants' in ns:
        a = [i for i, l in enumerate(src) if l.startswith('reactants')][0]
        out.append('/-- `%s.reactants` (%s.py:%d-%d). -/' % (f, f, a + 1, len(src)))
        out.append('def %s_reactants : List (String × List (String × ℚ)) := [' % f)
        out.append(',\n'.join('  ("%s", [%s])' % (k, ', '.join('("%s", %s)' % (e, q(v)) for e, v in d.items())) for k, d in ns['reactants'].items()) + ']')
        out.append('')
out.append('''/-- `wet_air.products` (wet_air.py:12-15): the JANAF products without `CH4` and `C2H4`; weights and
reactants are shared (17-19). -/
def wet_air : List Prod := janaf.filter fun p => p.name != "CH4" && p.name != "C2H4"

end PyCycle.Data''')
s = '\n'.join(out) + '\n'
s = s.replace('import Mathlib.Data.Rat.Init\n', '')
open('/verif/lean/Verif/Model/ThermoDataTables.lean', 'w').write(s)
