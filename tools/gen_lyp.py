#!/usr/bin/env python3
"""Writes lean/Verif/LayerMap/Files.lean: the entries of the layer files that are part of the repository."""
import os, xml.etree.ElementTree as ET
HERE = os.path.dirname(os.path.abspath(__file__))
FILES = [("skyFile", "pdk/sky130A/libs.tech/kpex/sky130A.lyp"), ("sgFile", "pdk/ihp_sg13g2/libs.tech/kpex/sg13g2.lyp")]
def entries(path):
    for lp in ET.parse(path).getroot().findall('./properties'):
        yield lp.find('./name').text, lp.find('./source').text
def lit(s):
    assert all(32 <= ord(c) < 127 and c not in '"\\' for c in s), s
    return 't!"' + s + '"'
out = ["import Verif.LayerMap.Model", "", "/-!", "# The layer files of the repository", "",
       "Generated by `tools/gen_lyp.py`: name and source of every entry, in the order of the file.", "-/", "",
       "namespace Verif.LayerMap", "", "set_option maxRecDepth 100000", "",
       "/-- A text as the list of its characters. -/", "local macro \"t!\" s:str : term => do",
       "  let cs := s.getString.toList.map Lean.Syntax.mkCharLit", "  `([$(cs.toArray),*])"]
for name, rel in FILES:
    es = list(entries(os.path.join('/repo', rel)))
    out += ["", f"/-- {rel}, `/layer-properties/properties`: texts of `name` and `source`. -/",
            f"noncomputable def {name} : List (Str × Str) := ["]
    line = "  "
    for k, (n, s) in enumerate(es):
        t = f"({lit(n)}, {lit(s)})" + ("," if k + 1 < len(es) else "]")
        if len(line) + len(t) > 128:
            out.append(line.rstrip()); line = "  "
        line += t + " "
    out.append(line.rstrip())
out += ["", "/-- `parse_layers`, convert_layout_pdk.py 254–291, for a list of entries. -/",
        "def parseLayers (es : List (Str × Str)) : List Layer := es.map fun e => parseLayer e.1 e.2", "",
        "end Verif.LayerMap", ""]
open(os.path.join(HERE, '..', 'lean', 'Verif', 'LayerMap', 'Files.lean'), 'w').write("\n".join(out))
