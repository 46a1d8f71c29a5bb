#!/usr/bin/env python3
"""Extracts the three tables of /repo/geo_lookup/geo_magnetic_tables.hpp into lean/Verif/GeoLookup/Tables.lean."""
import re
src=open('/repo/geo_lookup/geo_magnetic_tables.hpp').read()
out=["/-!\n# Geomagnetic tables — geo_lookup/geo_magnetic_tables.hpp (generated by tools/gen_tables.py)\n-/\n\nnamespace Ecl.GeoLookup\n"]
for name,lean,cite in [("declination_table","declinationTable","10⁻⁴ rad"),("inclination_table","inclinationTable","10⁻⁴ rad"),("strength_table","strengthTable","10⁻⁴ Gauss")]:
    m=re.search(r'int16_t '+name+r'\[19\]\[37\] \{(.*?)\n\};',src,re.S)
    line=src[:m.start()].count('\n')+1; end=src[:m.end()].count('\n')+1
    rows=re.findall(r'/\* LAT:.*?\*/ \{(.*?)\}',m.group(1))
    assert len(rows)==19
    vals=[[int(x) for x in r.split(',') if x.strip()] for r in rows]
    assert all(len(r)==37 for r in vals)
    out.append(f"/-- `{name}`, geo_lookup/geo_magnetic_tables.hpp:{line}-{end} ({cite}) -/\ndef {lean} : List (List Int) := [\n"+',\n'.join('  ['+', '.join(str(v) for v in r)+']' for r in vals)+"]\n")
out.append("end Ecl.GeoLookup\n")
open('/verif/lean/Verif/GeoLookup/Tables.lean','w').write('\n'.join(out))
