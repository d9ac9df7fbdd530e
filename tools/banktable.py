#!/usr/bin/env python3
"""Write lean/Verif/Bankinfo/Table.lean from /repo/bankinfo/data.go."""
import re
import sys

src = sys.argv[1] if len(sys.argv) > 1 else '/repo/bankinfo/data.go'
dst = sys.argv[2] if len(sys.argv) > 2 else '/verif/lean/Verif/Bankinfo/Table.lean'
text = open(src, encoding='utf-8').read()
rows = []
for m in re.finditer(r'\{\n((?:\t\t\w+:\s+".*",\n)+)\t\}', text):
    rows.append(dict((k, v) for k, v in re.findall(r'\t\t(\w+):\s+"(.*)",\n', m.group(1))))
assert len(rows) == text.count('BankID:')
urls, kinds = [], []
out = []
for r in rows:
    assert re.fullmatch(r'[0-9]{8}', r['BankID']) and '\\' not in r['URL'] + r['VersionName'] + r['VersionNumber']
    if r['URL'] not in urls:
        urls.append(r['URL'])
    k = (r['VersionNumber'], r['VersionName'])
    if k not in kinds:
        kinds.append(k)
    out.append((int(r['BankID']), urls.index(r['URL']), kinds.index(k)))
CHUNK = 300
chunks = [out[i:i + CHUNK] for i in range(0, len(out), CHUNK)]
w = []
w.append('''import Verif.Bankinfo.Model

/-
The bank table of /repo/bankinfo/data.go, written by tools/banktable.py: all entries, in their order.
-/

namespace Verif.Bankinfo

/-- The URLs of /repo/bankinfo/data.go:5-36456, each once. -/
def urls : List Str :=
  [''' + ',\n   '.join('c!"%s"' % u for u in urls) + ''']

/-- The pairs of `VersionNumber` and `VersionName` there, each once. -/
def kinds : List (Str × Str) :=
  [''' + ',\n   '.join('(c!"%s", c!"%s")' % k for k in kinds) + ''']

/-- An entry: the bank ID as a number, URL and versions by their place in `urls` and `kinds`. -/
structure Row where
  id : Nat
  url : Nat
  kind : Nat
  deriving DecidableEq

/-- A number of eight digits. -/
def digits (n : Nat) : Str :=
  [n / 10000000, n / 1000000, n / 100000, n / 10000, n / 1000, n / 100, n / 10, n].map fun k => Char.ofNat (48 + k % 10)

/-- The entry.  Simplification: `BIC`, `Institute`, `City` and `LastChanged` are left out. -/
def Row.info (r : Row) : BankInfo :=
  { bankID := digits r.id, url := urls.getD r.url [], versionNumber := (kinds.getD r.kind ([], [])).1,
    versionName := (kinds.getD r.kind ([], [])).2 }

private abbrev r (a b c : Nat) : Row := ⟨a, b, c⟩
''')
for i, c in enumerate(chunks):
    lines = []
    for j in range(0, len(c), 8):
        lines.append(', '.join('r %d %d %d' % x for x in c[j:j + 8]))
    w.append('/-- Entries %d to %d of /repo/bankinfo/data.go. -/\ndef rows%d : List Row := [\n  %s]\n' % (
        i * CHUNK + 1, i * CHUNK + len(c), i, ',\n  '.join(lines)))
w.append('/-- All entries. -/\ndef rows : List Row :=\n  ' + ' ++ '.join('rows%d' % i for i in range(len(chunks))) + '\n')
w.append('''/-- /repo/bankinfo/data.go:5-36456 `data`. -/
def table : List BankInfo := rows.map Row.info

end Verif.Bankinfo
''')
open(dst, 'w', encoding='utf-8').write('\n'.join(w))
print(len(out), len(urls), len(kinds))
