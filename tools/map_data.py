#!/usr/bin/env python3
"""Generate lean/Verif/Model/MapTables.lean from /repo/pycycle/maps/*.py (exact decimal literals)."""
import ast, os, re
from fractions import Fraction
SRC = '/repo/pycycle/maps/'
COMP = ['Fan_map', 'HPC_map', 'LPC_map', 'axi3_2', 'axi5', 'ncp01']
TURB = ['HPT_map', 'LPT_map', 'hpt1269', 'lpt2269']

def q(node, src):
    neg = False
    while isinstance(node, ast.UnaryOp):
        assert isinstance(node.op, ast.USub); neg = not neg; node = node.operand
    f = Fraction(ast.get_source_segment(src, node))
    if neg: f = -f
    return str(f.numerator) if f.denominator == 1 else f'{f.numerator}/{f.denominator}'

def val(node, src):
    if isinstance(node, ast.Call): return val(node.args[0], src)
    if isinstance(node, (ast.List, ast.Tuple)): return [val(x, src) for x in node.elts]
    return q(node, src)

def load(f):
    src = open(SRC + f + '.py').read(); t = ast.parse(src); d = {}; ln = {}
    pd = {}
    for s in t.body:
        if isinstance(s, ast.Assign):
            tgt = ast.unparse(s.targets[0])
            if '.' in tgt:
                k = tgt.split('.', 1)[1]
                try: d[k] = val(s.value, src); ln[k] = (s.lineno, s.end_lineno)
                except Exception: pass
        if isinstance(s, ast.Expr) and isinstance(s.value, ast.Call) and ast.unparse(s.value.func).endswith('param_data.append'):
            dd = s.value.args[0]
            e = {ast.literal_eval(k): v for k, v in zip(dd.keys, dd.values)}
            pd[ast.literal_eval(e['name'])] = q(e['default'], src)
    return d, ln, pd

def row(r): return '[' + ', '.join(r) + ']'
def plane(p, ind): return '[' + (',\n' + ind).join(row(r) for r in p) + ']'
def cube(c): return '[' + ',\n    '.join(plane(p, '     ') for p in c) + ']'
out = ['import Verif.Model.MapInterp', '',
 '/-! # The maps shipped in pycycle/maps, as exact decimals',
 '', 'Generated by tools/map_data.py from the literals in the Python files. -/', '',
 'namespace PyCycle.MapData', '']
def name(f): return re.sub(r'_map$', 'Map', f).replace('_', '')
for f in COMP:
    d, ln, pd = load(f)
    L = lambda k: f'{ln[k][0]}-{ln[k][1]}' if ln[k][0] != ln[k][1] else str(ln[k][0])
    n = name(f)
    out += [f'/-- maps/{f}.py: axes {L("alphaMap")}, {L("NcMap")}, {L("RlineMap")}; `WcMap` {L("WcMap")}, `effMap` {L("effMap")}, `PRmap` {L("PRmap")};',
            f'defaults {ln[chr(100)+"efaults["+chr(39)+"NcMap"+chr(39)+"]"][0]} ff., stall line {L("RlineStall")}; `alphaMap` default from `param_data`. -/',
            f'def {n} : CTable where',
            f'  alpha := {row(d["alphaMap"])}', f'  N := {row(d["NcMap"])}', f'  R := {row(d["RlineMap"])}',
            f'  dAlpha := {pd["alphaMap"]}', f"  dN := {d[chr(100)+'efaults['+chr(39)+'NcMap'+chr(39)+']']}",
            f"  dR := {d['defaults['+chr(39)+'RlineMap'+chr(39)+']']}", f'  stall := {d["RlineStall"]}',
            f'  W := {cube(d["WcMap"])}', f'  eff := {cube(d["effMap"])}', f'  PR := {cube(d["PRmap"])}', '']
    assert pd['alphaMap'] == d["defaults['alphaMap']"] and pd['NcMap'] == d["defaults['NcMap']"] and pd['RlineMap'] == d["defaults['RlineMap']"], (f, pd)
for f in TURB:
    d, ln, pd = load(f)
    L = lambda k: f'{ln[k][0]}-{ln[k][1]}' if ln[k][0] != ln[k][1] else str(ln[k][0])
    n = name(f)
    out += [f'/-- maps/{f}.py: axes {L("alphaMap")}, {L("NpMap")}, {L("PRmap")}; `WpMap` {L("WpMap")}, `effMap` {L("effMap")}; `alphaMap` default from `param_data`. -/',
            f'def {n} : TTable where',
            f'  alpha := {row(d["alphaMap"])}', f'  N := {row(d["NpMap"])}', f'  PR := {row(d["PRmap"])}',
            f'  dAlpha := {pd["alphaMap"]}', f"  dN := {d['defaults['+chr(39)+'NpMap'+chr(39)+']']}",
            f"  dPR := {d['defaults['+chr(39)+'PRmap'+chr(39)+']']}",
            f'  W := {cube(d["WpMap"])}', f'  eff := {cube(d["effMap"])}', '']
    assert pd['alphaMap'] == d["defaults['alphaMap']"] and pd['NpMap'] == d["defaults['NpMap']"] and pd['PRmap'] == d["defaults['PRmap']"], (f, pd)
out += ['/-- All compressor maps in pycycle/maps. -/', f'def compressors : List CTable := [{", ".join(map(name, COMP))}]', '',
        '/-- All turbine maps in pycycle/maps. -/', f'def turbines : List TTable := [{", ".join(map(name, TURB))}]', '',
        'end PyCycle.MapData', '']
open('/verif/lean/Verif/Model/MapTables.lean', 'w').write('\n'.join(out))
