# generates lean/Verif/Model/Tokens.lean from /repo/y.go and /repo/lexer.go
import re
src=open('/repo/y.go').read().split('\n')
out=["/-! Generated by tools/gen_tokens.py from /repo/y.go:75-199 and /repo/lexer.go:14-98. -/","","namespace Asn1go","",
"/-- Go strings at rune level (UTF-8 decoding is modelled in `Verif.Model.Utf8`).  For lexer.go:116-407 and ast.go:161-203. -/","abbrev Str := List Char","","namespace Tok",""]
consts={}
for i,l in enumerate(src):
    m=re.match(r'const ([A-Za-z0-9_]+) = (\d+)$',l)
    if m and int(m[2])>=57346:
        consts[m[1]]=int(m[2])
        out.append(f"/-- y.go:{i+1} -/\nabbrev {m[1]} : Int := {m[2]}")
out+=["","end Tok",""]
lx=open('/repo/lexer.go').read().split('\n')
rows=[]
for i,l in enumerate(lx[:98]):
    m=re.match(r'\s*"([^"]+)":\s+([A-Za-z0-9_]+),',l)
    if m: rows.append((m[1],m[2]))
out.append("/-- lexer.go:14-98 `RESERVED_WORDS` (a Go map; keys are distinct, so an association list is the same). -/")
out.append("def reservedWords : List (Str × Int) := [")
out.append(",\n".join("  ([%s], Tok.%s)"%(", ".join("'%s'"%c for c in w),t) for w,t in rows))
out.append("]\n\nend Asn1go\n")
open('/verif/lean/Verif/Model/Tokens.lean','w').write("\n".join(out))
print(len(consts),len(rows))
