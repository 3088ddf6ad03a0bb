#!/usr/bin/env python3
"""Writes lean/Verif/Model/Listing.lean: the tables of /repo/y.go, line by line as printed there."""
import re, sys
src = open('/repo/y.go').read().split('\n')
out = ['import Verif.Model.Tables', '',
       '/-! Generated by /verif/tools/gen_listing.py: the tables of /repo/y.go with the line breaks they have there, for comparing',
       'by eye.  `Verif/Proofs/Tables.lean` shows that the trees of `Verif/Model/Tables.lean` hold the same numbers. -/', '',
       'namespace Asn1go.Listing', '']
for name in ['yyExca', 'yyAct', 'yyPact', 'yyPgo', 'yyR1', 'yyR2', 'yyChk', 'yyDef', 'yyTok1', 'yyTok2', 'yyTok3']:
    i = next(k for k, l in enumerate(src) if l.startswith('var %s = ' % name))
    j = i + 1
    rows = []
    while src[j] != '}':
        rows.append(src[j].strip())
        j += 1
    rows[-1] = rows[-1].rstrip(',')
    out.append('/-- y.go:%d-%d -/' % (i + 1, j + 1))
    out.append('def %s : List Int := [' % name)
    out += ['  ' + r for r in rows] + ['  ]', '']
out.append('end Asn1go.Listing')
open('/verif/lean/Verif/Model/Listing.lean', 'w').write('\n'.join(out) + '\n')
