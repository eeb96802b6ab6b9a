#!/usr/bin/env python3
"""Compare the CSV printed by the executable model with a reference result shipped in /repo."""
import csv, sys
a = list(csv.DictReader(open(sys.argv[1]))); b = list(csv.DictReader(open(sys.argv[2])))
print("columns equal:", list(a[0]) == list(b[0]), "| only model:", set(a[0]) - set(b[0]), "| only reference:", set(b[0]) - set(a[0]))
print("rows:", len(a), len(b))
worst = (0, None)
for i, (x, y) in enumerate(zip(a, b)):
    for k in x:
        if k in y and x[k] != '' and y[k] != '':
            u, v = float(x[k]), float(y[k])
            d = abs(u - v) / max(1.0, abs(v))
            if d > worst[0]: worst = (d, (i, k, u, v))
print("largest difference (relative to max(1,|ref|)):", worst)
