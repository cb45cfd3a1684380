#!/usr/bin/env python3
"""Generates lean/Verif/Model/ColourMapTables.lean from /repo/src/colourmap/*.rs (values times 10^12, exact)."""
import re
from decimal import Decimal
out=['import Verif.Model.ColourMap','import Mathlib.Data.Real.Basic','',
'/-! Generated by tools/gen_colourmaps.py from /repo/src/colourmap/*.rs. Each entry is `10^12` times the decimal literal in the source. -/','',
'namespace Rendering','','/-- A table entry, in units of 10⁻¹². -/','abbrev RawRgb := Nat × Nat × Nat','']
names=[]
for f,ln in [('inferno',23),('magma',23),('plasma',23),('radiance',24),('viridis',23)]:
    s=open(f'/repo/src/colourmap/{f}.rs').read()
    s=s[s.index('pub const'):]; s=s[s.index('=')+1:]
    v=[int(Decimal(x)*10**12) for x in re.findall(r'-?\d+\.\d*(?:e-?\d+)?',s)]
    assert all(Decimal(x)*10**12==int(Decimal(x)*10**12) for x in re.findall(r'-?\d+\.\d*(?:e-?\d+)?',s))
    assert len(v)==768
    out.append(f'/-- /repo/src/colourmap/{f}.rs:{ln} `{f.upper()}_COLOURMAP`. -/')
    out.append(f'def {f}Raw : List RawRgb := [')
    rows=[f'({v[3*i]}, {v[3*i+1]}, {v[3*i+2]})' for i in range(256)]
    for i in range(0,256,4): out.append('  '+', '.join(rows[i:i+4])+(',' if i<252 else ']'))
    out.append('')
out+=['/-- The entry as numbers. -/','noncomputable def RawRgb.toRgb (c : RawRgb) : Rgb ℝ := ⟨c.1 / 10 ^ 12, c.2.1 / 10 ^ 12, c.2.2 / 10 ^ 12⟩','',
'/-- /repo/src/colourmap/mod.rs:34-57 `Colourmap`. -/','inductive Colourmap where','  | radiance | inferno | magma | plasma | viridis','',
'/-- The selection in /repo/src/image.rs:327-333 and 396-402. -/','def Colourmap.raw : Colourmap → List RawRgb',
'  | .inferno => infernoRaw','  | .magma => magmaRaw','  | .plasma => plasmaRaw','  | .radiance => radianceRaw','  | .viridis => viridisRaw','',
'/-- The table of a map. -/','noncomputable def Colourmap.table (m : Colourmap) : List (Rgb ℝ) := m.raw.map RawRgb.toRgb','','end Rendering','']
open('/verif/lean/Verif/Model/ColourMapTables.lean','w').write('\n'.join(out))
