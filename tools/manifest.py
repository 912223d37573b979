#!/usr/bin/env python3
"""Regenerate MANIFEST.json from the theorems named Cnn_* in lean/Verif/Props."""
import json, re, glob, os
root = os.path.dirname(os.path.dirname(os.path.abspath(__file__)))
NOTES = {
    "C41": "Conformance is false for Big5 chars with a pointer below 5024 and for Shift JIS U+E000..U+E757; the theorems say exactly where encoding agrees with WHATWG and where not, with witnesses.",
    "C42": "True for every encoding WHATWG has except UTF-8; for UTF-8 the _differs_ theorem is the counterexample and the _agrees_ theorem the exact positive statement.",
    "C50": "A defect of the generator, proved as such; harmless for the shipped files.",
    "C65": "True for every encoding with ASCII except UTF-8, for which the _counterexample theorem is the negation.",
    "C18": "False for UTF-8 as first stated: the _depends_on_schedule theorem is the counterexample; the other theorem covers every other encoding.",
    "C25": "The crate's claim of losslessness is false; the _iff theorem says exactly which texts survive, the other theorem is the counterexample.",
    "C33": "False for a truncated UTF-8 tail: the _swallows_ascii theorem is the counterexample; the other theorem is the exact positive statement.",
}
thms = {}
for f in sorted(glob.glob(root + "/lean/Verif/Props/*.lean")):
    ns = "Verif.Props"
    for m in re.finditer(r"^theorem ((C\d\d+)_\w+)", open(f).read(), re.M):
        thms.setdefault(m.group(2), []).append(ns + "." + m.group(1))
claims = []
for l in open(root + "/properties.jsonl"):
    p = json.loads(l)
    ts = thms.get(p["id"], [])
    status = "partial" if (not ts or any(t.endswith("_partial") for t in ts)) else "proved"
    claims.append({"property": p["id"], "status": status, "theorems": ts,
                   "note": NOTES.get(p["id"], p["title"])})
    if not ts: print("no theorem for", p["id"])
for k in thms:
    if k not in [c["property"] for c in claims]: print("no property for", k)
json.dump({"claims": claims}, open(root + "/MANIFEST.json", "w"), indent=1, ensure_ascii=False)
